import Verif.Spec.Elastic
import Verif.Lemmas.Magres
import Verif.Lemmas.Efield
import Verif.Lemmas.Phonon
import Verif.Lemmas.Tddft
/-
`.elastic` files.
-/
namespace Verif.Elastic
open Verif Re NumRe AtomRe Spec

/-! ### Titles -/

abbrev notS (c : Nat) : CSet := ⟨true, [.ch c], false⟩

theorem has_notS (a c : Nat) : (notS a).has c = !(c == a) := by simp [CSet.has, CItem.has]

/-- `ELASTIC_BLOCK_RE` -/
abbrev EB : Re := .seq (star sp) (litThen (py"BEGIN ") (.seq (.group 1 (plus (notS 40)))
  (.rep true 0 (some 1) (.seq (.set (ch 40)) (.seq (.group 2 (plus (notS 41))) (.set (ch 41)))))))

theorem EB_eq : Res.ELASTIC_BLOCK_RE = ⟨EB, [(py"key", 1), (py"unit", 2)], 2⟩ := by decide +kernel

/-- All characters of a set, in a group. -/
theorem groupAll {r : Re} {cs : CSet} {i : Nat} {w s pre : Str} {caps C} (hne : w ≠ []) (hw : ∀ c ∈ w, cs.has c = true) (hs : Stops cs s)
    (h : Gets r (w.reverse ++ pre) s ((i, w) :: caps) C) : Gets (.seq (.group i (plus cs)) r) pre (w ++ s) caps C := by
  obtain ⟨t, h5, h6⟩ := h
  refine ⟨t, ?_, h6⟩
  rw [run_seq, run_group]
  apply run_plus_all cs 1 w _ _ _ _ _ _ (List.length_pos_iff.2 hne) hw hs (by simp)
  rw [upTo_append]; exact h5

theorem title_match {words : List Str} {unit : Option Str} {l : Str} (h : ElPart.Title words unit l) :
    title l = .ok (ElPart.key words, ElPart.unitVal unit) := by
  obtain ⟨g, name, hg, hne, h40, hw, hl⟩ := h
  have hkey : removeSuffix (py"_xx_yy_zz_yz_zx_xy") (normalise_key name) = ElPart.key words := by
    have e : alnumWords name = words := by
      rw [alnumWords, ← Scf.wordsAux_name]
      exact fields_split hw
    rw [normalise_key_eq, e, ElPart.key, removeSuffix, Str.endsWith]
    generalize Str.join (py"_") (words.map Str.lower) = k
    by_cases hh : (py"_xx_yy_zz_yz_zx_xy").isSuffixOf k = true
    · rw [if_pos hh, if_pos (List.isSuffixOf_iff_suffix.1 hh)]
    · rw [if_neg hh, if_neg (fun x => hh (List.isSuffixOf_iff_suffix.2 x))]
  have hnm : ∀ c ∈ name, (notS 40).has c = true := by
    intro c hc; rw [has_notS]; simp; intro e; exact h40 (e ▸ hc)
  have start : ∀ {tl : Str} {C}, Stops (notS 40) tl → (∀ pre, Gets (.rep true 0 (some 1) (.seq (.set (ch 40)) (.seq (.group 2 (plus (notS 41))) (.set (ch 41)))))
      pre tl [(1, name)] C) → Gets EB [] (g ++ (py"BEGIN " ++ (name ++ tl))) [] C := by
    intro tl C h1 h2
    refine Tddft.gapAt hg (Magres.stops_one (c := 66) (by decide)) fun pre' _ => ?_
    refine Gets.lit (py"BEGIN ") pre' ?_
    exact groupAll hne hnm h1 (h2 _)
  have key : ∃ C : List (Nat × Str), Gets EB [] l [] (· = C) ∧ Castep.got [(py"key", 1), (py"unit", 2)] C (py"key") = some name ∧
      optStr (Castep.got [(py"key", 1), (py"unit", 2)] C (py"unit")) = ElPart.unitVal unit := by
    cases unit with
    | none =>
      refine ⟨[(1, name)], ?_, rfl, rfl⟩
      have hl : l = g ++ (py"BEGIN " ++ name) := hl
      rw [hl]
      have := start (tl := []) (C := (· = [(1, name)])) (by simp [Stops]) (fun pre => ⟨⟨pre, [], [(1, name)]⟩, by
        rw [run_rep_greedy, run_seq, run_set_nil]; rfl, rfl⟩)
      simpa using this
    | some u =>
      obtain ⟨hu, h41, tail, hl⟩ := hl
      refine ⟨[(2, u), (1, name)], ?_, rfl, rfl⟩
      rw [hl]
      refine start (Magres.stops_one (by rw [has_notS]; rfl)) fun pre => ?_
      have hum : ∀ c ∈ u, (notS 41).has c = true := by
        intro c hc; rw [has_notS]; simp; intro e; exact h41 (e ▸ hc)
      refine ⟨⟨41 :: (u.reverse ++ 40 :: pre), tail, [(2, u), (1, name)]⟩, ?_, rfl⟩
      rw [run_rep_greedy, if_neg (by simp), run_seq, run_set_cons, if_pos (by rw [has_ch]; rfl), run_seq, run_group,
        run_plus_all (notS 41) 1 u _ _ _ _ _ ⟨41 :: (u.reverse ++ 40 :: pre), tail, [(2, u), (1, name)]⟩ (List.length_pos_iff.2 hu) hum
          (Magres.stops_one (by rw [has_notS]; rfl)) (by simp)]
      · rfl
      · rw [upTo_append, run_set_cons, if_pos (by rw [has_ch]; rfl), if_pos (by simp; omega), run_rep_greedy]
        rfl
  obtain ⟨C, h1, h2, h3⟩ := key
  obtain ⟨m, h4, h5, h6⟩ := Gets.match_ (p := Res.ELASTIC_BLOCK_RE) (by rw [EB_eq]; exact h1)
  rw [EB_eq] at h6
  rw [title, h4]
  show Except.ok _ = _
  rw [Castep.named_eq h5 h6, Castep.named_eq h5 h6, h2, h3, Option.getD_some, hkey]

/-! ### The internal strain -/

/-- `ELASTIC_INTERNAL_STRAIN_RE` -/
abbrev ES : Re := .seq (star sp) (.seq (.group 1 (plus dig)) (.seq (plus sp) (.seq (.group 2 A) (.seq (plus sp)
  (.seq (.group 3 (.set (cset [.ch 88, .ch 89, .ch 90]))) (.seq (plus sp) (.seq (LF 4) (.seq (LF 5) (.seq (LF 6) (.seq (LF 7) (.seq (LF 8) (LF 9)))))))))))) 

theorem ES_eq : Res.ELASTIC_INTERNAL_STRAIN_RE = ⟨ES, [(py"index", 1), (py"spec", 2), (py"dir", 3), (py"xx", 4), (py"yy", 5), (py"zz", 6), (py"yz", 7),
    (py"xz", 8), (py"xy", 9)], 9⟩ := by decide +kernel

/-- `\s+\s+?` before a labelled number. -/
theorem gap1Num {r : Re} {i : Nat} {n : Numeral} {c : Nat} {s : Str} {ws : List Str} {pre caps C} (hc : isSpace c = true) (hs : After s (n.text :: ws))
    (hn : n.Valid) (h : ∀ pre' s', After s' ws → Gets r pre' s' ((i, n.text) :: caps) C) :
    Gets (.seq (plus sp) (.seq (LF i) r)) pre (c :: s) caps C := by
  obtain ⟨t, h5, h6⟩ := Gets.gapNum (pre := c :: pre) (caps := caps) hs hn h
  refine ⟨t, ?_, h6⟩
  rw [run_seq] at h5 ⊢
  rw [run_plus_cons _ _ _ _ (by simp) _ _ _ _ _ (by rw [has_sp]; exact hc)]
  exact h5

/-- A gap of this length. -/
theorem gap1At {r : Re} {g s pre : Str} {caps C} (hg : Blank g) (hne : g ≠ []) (hs : Stops sp s) (h : ∀ pre', Clear pre' → Gets r pre' s caps C) :
    Gets (.seq (plus sp) r) pre (g ++ s) caps C := by
  obtain ⟨t, h5, h6⟩ := h (g.reverse ++ pre) (clear_gap hg (.inl hne))
  refine ⟨t, ?_, h6⟩
  rw [run_seq]
  exact run_plus_all sp 1 g _ _ _ _ _ _ (List.length_pos_iff.2 hne) (fun c hc => by rw [has_sp]; exact hg c hc) hs (by simp) h5

theorem name_nospace {a : AtomName} (h : a.Valid) (hl : a.label = none) : ∀ c ∈ a.text, isSpace c = false := by
  intro c hc
  have hw : ∀ c, isWord c = true → isSpace c = false := by
    intro c h
    cases hs : isSpace c with
    | false => rfl
    | true => rw [isSpace_not_word hs] at h; cases h
  rw [AtomName.text, hl] at hc
  simp only [AtomName.labelText, List.append_nil, List.mem_append, List.mem_cons] at hc
  rcases hc with (rfl | hc) | hc
  · simp [isSpace]; have := h.1; omega
  · have := h.2.1.2 c hc; simp [isSpace]; omega
  · cases hcu : a.custom with
    | none => rw [hcu] at hc; cases hc
    | some s =>
      rw [hcu] at hc
      simp only [AtomName.customText, List.mem_cons] at hc
      rcases hc with rfl | hc
      · decide
      · exact hw c ((h.2.2.1 s hcu).2 c hc)

theorem after_gap {g s : Str} {ws : List Str} (hg : Blank g) (hne : g ≠ []) (h : Fields s ws) : After (g ++ s) ws := by
  refine ⟨?_, fields_prepend hg h⟩
  intro c hc
  cases g with
  | nil => exact absurd rfl hne
  | cons d g => simp at hc; subst hc; exact hg d (by simp)

theorem fields_cons {w s : Str} {ws : List Str} (hne : w ≠ []) (hw : ∀ c ∈ w, isSpace c = false) (h : After s ws) : Fields (w ++ s) (w :: ws) := by
  have : w ++ s = [] ++ w ++ s := by simp
  rw [this]
  exact .cons (by simp) hne (fun c hc => by simp [hw c hc]) (fun c hc => by simp [h.1 c hc]) h.2

theorem strain_match {l : Str} {r : StrainRow} (h : StrainRow.Line l r) (hr : r.Ok) :
    ∃ m, Res.ELASTIC_INTERNAL_STRAIN_RE.match_ l = some m ∧ atreg_match m = .ok r.ion := by
  obtain ⟨g0, g1, g2, g3, s, rfl, b0, ⟨b1, n1⟩, ⟨b2, n2⟩, ⟨b3, n3⟩, hf⟩ := h
  obtain ⟨hi, hine, hv, hlab, hnd, hdir, hlen, hok⟩ := hr
  obtain ⟨n4, n5, n6, n7, n8, n9, hcomps⟩ : ∃ a b c d e f, r.comps = [a, b, c, d, e, f] := by
    match hc : r.comps with
    | [a, b, c, d, e, f] => exact ⟨a, b, c, d, e, f, rfl⟩
    | [] | [_] | [_, _] | [_, _, _] | [_, _, _, _] | [_, _, _, _, _] => rw [hc] at hlen; simp at hlen
    | _ :: _ :: _ :: _ :: _ :: _ :: _ :: _ => rw [hc] at hlen; simp at hlen
  have hval : ∀ n ∈ r.comps, n.Valid := fun n hn => (hok n hn).1
  rw [hcomps] at hf hval
  obtain ⟨c, g3, rfl⟩ : ∃ c t, g3 = c :: t := by
    cases g3 with
    | nil => simp at n3
    | cons c t => exact ⟨c, t, rfl⟩
  have hg3 : g3 ≠ [] := by rintro rfl; simp at n3
  have b3' : Blank g3 := fun x hx => b3 x (by simp [hx])
  have hc : isSpace c = true := b3 c (by simp)
  have a3 : After (g3 ++ s) ([n4, n5, n6, n7, n8, n9].map Numeral.text) := after_gap b3' hg3 hf
  have hdsp : isSpace r.dir = false := by rcases hdir with e | e | e <;> rw [e] <;> decide
  have a2' : After (c :: (g3 ++ s)) ([n4, n5, n6, n7, n8, n9].map Numeral.text) := after_gap (g := c :: g3) b3 (by simp) hf
  have f2 : Fields (r.dir :: (c :: (g3 ++ s))) ([r.dir] :: [n4, n5, n6, n7, n8, n9].map Numeral.text) :=
    fields_cons (w := [r.dir]) (by simp) (by simp [hdsp]) a2'
  have a2 := after_gap b2 n2 f2
  have hns := name_nospace hv hlab
  have f1 := fields_cons (w := r.name.text) (by simp [AtomName.text]) hns a2
  have a1 := after_gap b1 n1 f1
  have key : Gets ES [] (g0 ++ (r.idx ++ (g1 ++ (r.name.text ++ (g2 ++ r.dir :: (c :: g3 ++ s)))))) []
      (· = [(9, n9.text), (8, n8.text), (7, n7.text), (6, n6.text), (5, n5.text), (4, n4.text), (3, [r.dir]), (2, r.name.text), (1, r.idx)]) := by
    refine Tddft.gapAt b0 (stops_word hine (fun d hd => by
      have := hi d hd; simp [isSpace]; omega)) fun pre' _ => ?_
    refine Gets.digits hi hine a1 ?_
    refine gap1At b1 n1 (stops_word (by simp [AtomName.text]) hns) fun pre' hp => ?_
    refine Gets.atom hv hlab hp a2 (by rcases hdir with e | e | e <;> rw [e] <;> decide) ?_
    refine gap1At b2 n2 (Magres.stops_one (by rw [has_sp]; exact hdsp)) fun pre' hp => ?_
    have hset : (cset [.ch 88, .ch 89, .ch 90]).has r.dir = true := by rcases hdir with e | e | e <;> rw [e] <;> decide
    have hgrp : ∀ {q : Re} {s pre caps C}, Gets q (r.dir :: pre) s ((3, [r.dir]) :: caps) C →
        Gets (.seq (.group 3 (.set (cset [.ch 88, .ch 89, .ch 90]))) q) pre (r.dir :: s) caps C := by
      intro q s pre caps C h
      obtain ⟨t, h5, h6⟩ := h
      refine ⟨t, ?_, h6⟩
      rw [run_seq, run_group, run_set_cons, if_pos hset]
      have e : (⟨pre, r.dir :: s, caps⟩ : St).upTo ⟨r.dir :: pre, s, caps⟩ = [r.dir] := _root_.Verif.upTo_append pre [r.dir] s caps caps
      rw [e]; exact h5
    refine hgrp ?_
    refine gap1Num hc a3 (hval _ (by simp)) fun _ _ h => ?_
    refine Gets.num h (hval _ (by simp)) fun _ _ h => ?_
    refine Gets.num h (hval _ (by simp)) fun _ _ h => ?_
    refine Gets.num h (hval _ (by simp)) fun _ _ h => ?_
    refine Gets.num h (hval _ (by simp)) fun _ _ h => ?_
    refine Gets.last (Gets.num h (hval _ (by simp)) fun _ _ h => Gets.eps rfl)
  obtain ⟨m, h4, h5, h6⟩ := Gets.match_ (p := Res.ELASTIC_INTERNAL_STRAIN_RE) (by rw [ES_eq]; exact key)
  refine ⟨m, h4, ?_⟩
  rw [ES_eq] at h6
  have h1 : m.named (py"index") = some r.idx := by rw [Castep.named_eq h5 h6]; rfl
  have h2 : m.named (py"spec") = some r.name.text := by rw [Castep.named_eq h5 h6]; rfl
  rw [atreg_match, h1, MdFrame.intOfGroup_digits r.idx hi hine, h2]; rfl

theorem blank_char {g : Str} (h : Blank g) : ∀ c ∈ g, ¬ (48 ≤ c ∧ c ≤ 57) ∧ c ∉ py"+-.Ee" ∧ c ∉ py"+-." := by
  intro c hc
  have := h c hc
  simp [isSpace] at this
  refine ⟨by omega, ?_, ?_⟩ <;> simp <;> omega

theorem blank_between {g : Str} (h : Blank g) (hne : g ≠ []) : Between g :=
  ⟨hne, fun c hc => (blank_char h c hc).1, fun c hc => (blank_char h c (List.mem_of_mem_head? hc)).2.1,
    fun c hc => (blank_char h c (List.mem_of_mem_getLast? hc)).2.2⟩

theorem blank_trailing {g : Str} (h : Blank g) : Trailing g :=
  ⟨fun c hc => (blank_char h c hc).1, fun c hc => (blank_char h c (List.mem_of_mem_head? hc)).2.1⟩

/-- Numbers with blanks after them. -/
theorem pairs_of : ∀ (ns : List Numeral) (n : Numeral) (s : Str), After s (ns.map Numeral.text) →
    ∃ l : List (Numeral × Str), l ≠ [] ∧ l.map Prod.fst = n :: ns ∧ n.text ++ s = l.flatMap (fun p => p.1.text ++ p.2) ∧
      (∀ p ∈ l.dropLast, Between p.2) ∧ ∀ p ∈ l.getLast?, Trailing p.2
  | [], n, s, h => by
    refine ⟨[(n, s)], by simp, rfl, by simp, by simp, ?_⟩
    intro p hp
    simp at hp; subst hp
    exact blank_trailing (blank_of_fields h.2)
  | m :: ns, n, s, h => by
    obtain ⟨g, s', rfl, h1, h2, -, -, h4⟩ := h.next
    obtain ⟨l, e1, e2, e3, e4, e5⟩ := pairs_of ns m s' h4
    refine ⟨(n, g) :: l, by simp, by rw [List.map_cons, e2], by rw [List.flatMap_cons, ← e3]; simp, ?_, ?_⟩
    · rw [List.dropLast_cons_of_ne_nil e1]
      intro p hp
      rw [List.mem_cons] at hp
      rcases hp with rfl | hp
      · exact blank_between h1 h2
      · exact e4 p hp
    · intro p hp
      cases l with
      | nil => exact absurd rfl e1
      | cons q l => exact e5 p (by simpa using hp)

theorem strain_numbers {l : Str} {r : StrainRow} (h : StrainRow.Line l r) (hr : r.Ok) : HasNumbers l (r.num :: r.comps) := by
  obtain ⟨g0, g1, g2, g3, s, rfl, b0, ⟨b1, n1⟩, ⟨b2, n2⟩, ⟨b3, n3⟩, hf⟩ := h
  obtain ⟨hi, hine, hv, hlab, hnd, hdir, hlen, hok⟩ := hr
  right
  have hnum : r.num.text = r.idx := by simp [StrainRow.num, Numeral.text, Numeral.signText, Numeral.fracText, Numeral.expText]
  cases hc : r.comps with
  | nil => rw [hc] at hlen; simp at hlen
  | cons n ns =>
    rw [hc] at hf
    obtain ⟨g, s', rfl, h1, -, -, h4⟩ := fields_next hf
    obtain ⟨l, e1, e2, e3, e4, e5⟩ := pairs_of ns n s' h4
    refine ⟨g0, (r.num, g1 ++ (r.name.text ++ (g2 ++ r.dir :: (g3 ++ g)))) :: l, by simp, by rw [List.map_cons, e2], ?_, ?_, ?_, ?_⟩
    · rw [List.flatMap_cons, ← e3, hnum]; simp
    · exact ⟨fun c hc => (blank_char b0 c hc).1, fun c hc => (blank_char b0 c (List.mem_of_mem_getLast? hc)).2.2⟩
    · rw [List.dropLast_cons_of_ne_nil e1]
      intro p hp
      rw [List.mem_cons] at hp
      rcases hp with rfl | hp
      · have hd : ¬ (48 ≤ r.dir ∧ r.dir ≤ 57) := by rcases hdir with e | e | e <;> rw [e] <;> decide
        refine ⟨by simp [n1], ?_, ?_, ?_⟩
        · intro c hc
          simp only [List.mem_append, List.mem_cons] at hc
          rcases hc with hc | hc | hc | rfl | hc | hc
          · exact (blank_char b1 c hc).1
          · exact hnd c hc
          · exact (blank_char b2 c hc).1
          · exact hd
          · exact (blank_char b3 c hc).1
          · exact (blank_char h1 c hc).1
        · intro c hc
          cases g1 with
          | nil => exact absurd rfl n1
          | cons d g1 => simp at hc; subst hc; exact (blank_char b1 d (by simp)).2.1
        · intro c hc
          have hb : Blank (g3 ++ g) := by
            intro x hx
            rw [List.mem_append] at hx
            rcases hx with hx | hx
            · exact b3 x hx
            · exact h1 x hx
          have hne : g3 ++ g ≠ [] := by
            cases g3 with
            | nil => simp at n3
            | cons x g3 => simp
          have e : g1 ++ (r.name.text ++ (g2 ++ r.dir :: (g3 ++ g))) = (g1 ++ (r.name.text ++ (g2 ++ [r.dir]))) ++ (g3 ++ g) := by simp
          have hc : (g1 ++ (r.name.text ++ (g2 ++ r.dir :: (g3 ++ g)))).getLast? = some c := hc
          rw [e, List.getLast?_append_of_ne_nil _ hne] at hc
          exact (blank_char hb c (List.mem_of_mem_getLast? hc)).2.2
      · exact e4 p hp
    · intro p hp
      cases l with
      | nil => exact absurd rfl e1
      | cons q l => exact e5 p (by simpa using hp)

/-! ### Groups -/

theorem nodup_dups {α : Type} [BEq α] [LawfulBEq α] : ∀ (n : Nat) (l : List α), l.length ≤ n → l.eraseDups.Nodup
  | _, [], _ => by simp
  | 0, a :: l, h => by simp at h
  | n + 1, a :: l, h => by
    rw [List.eraseDups_cons, List.nodup_cons]
    refine ⟨?_, nodup_dups n _ ?_⟩
    · rw [List.mem_eraseDups, List.mem_filter]
      simp
    · exact Nat.le_trans (List.length_filter_le _ _) (by simpa using h)

theorem grouped_add {a : Dict Key PyVal} {l : List (Key × PyVal)} {k : Key} {v : PyVal} (ha : k ∉ Dict.keys a) :
    MdGeom.appendTo (a ++ grouped l) k v = .ok (a ++ grouped (l ++ [(k, v)])) := by
  have hother : ∀ k', k' ≠ k → ((l ++ [(k, v)]).filter fun p => p.1 = k') = l.filter fun p => p.1 = k' := by
    intro k' hk
    rw [List.filter_append]
    simp [Ne.symm hk]
  have hself : ((l ++ [(k, v)]).filter fun p => p.1 = k) = (l.filter fun p => p.1 = k) ++ [(k, v)] := by
    rw [List.filter_append]
    simp
  by_cases hk : k ∈ (l.map Prod.fst).eraseDups
  · obtain ⟨u, w, hu, hku⟩ := List.eq_append_cons_of_mem hk
    have hnd : (l.map Prod.fst).eraseDups.Nodup := nodup_dups _ _ (Nat.le_refl _)
    have hkw : k ∉ w := by
      rw [hu, List.nodup_append] at hnd
      exact (List.nodup_cons.1 hnd.2.1).1
    have he : ((l ++ [(k, v)]).map Prod.fst).eraseDups = u ++ k :: w := by
      have hk' : k ∈ l.map Prod.fst := List.mem_eraseDups.1 hk
      rw [List.map_append, List.eraseDups_append, hu]
      have : [k].removeAll (l.map Prod.fst) = [] := by
        simp only [List.removeAll, List.filter_cons, List.filter_nil]
        rw [if_neg]
        simpa using hk'
      show _ ++ ([k].removeAll _).eraseDups = _
      rw [this]; simp
    rw [grouped, grouped, he, hu, List.map_append, List.map_append, List.map_cons, List.map_cons, ← List.append_assoc, ← List.append_assoc, appendTo_mid]
    · rw [hself, List.map_append]
      congr 2
      · congr 1
        refine List.map_congr_left fun k' hk' => ?_
        rw [hother k' (fun e => hku (e ▸ hk'))]
      · congr 1
        refine List.map_congr_left fun k' hk' => ?_
        rw [hother k' (fun e => hkw (e ▸ hk'))]
    · rw [Dict.keys, List.map_append, List.mem_append, List.map_map]
      rintro (h | h)
      · exact ha h
      · exact hku (by simpa using h)
  · have hk' : k ∉ l.map Prod.fst := fun h => hk (List.mem_eraseDups.2 h)
    have he : ((l ++ [(k, v)]).map Prod.fst).eraseDups = (l.map Prod.fst).eraseDups ++ [k] := by
      rw [List.map_append, List.eraseDups_append]
      have : [k].removeAll (l.map Prod.fst) = [k] := by
        simp only [List.removeAll, List.filter_cons, List.filter_nil]
        rw [if_pos]
        simpa using hk'
      show _ ++ ([k].removeAll _).eraseDups = _
      rw [this]; rfl
    have hfil : (l.filter fun p => p.1 = k) = [] := by
      rw [List.filter_eq_nil_iff]
      intro p hp e
      exact hk' (List.mem_map.2 ⟨p, hp, by simpa using e⟩)
    rw [appendTo_fresh]
    · rw [grouped, grouped, he, List.map_append, ← List.append_assoc]
      congr 2
      · congr 1
        refine List.map_congr_left fun k' hk'' => ?_
        rw [hother k' (fun e => hk (e ▸ hk''))]
      · rw [List.map_singleton, hself, hfil]; rfl
    · rw [Dict.keys, List.map_append, List.mem_append, grouped, List.map_map]
      rintro (h | h)
      · exact ha h
      · exact hk (by simpa using h)

/-! ### Blocks -/

theorem num_valid {r : StrainRow} (h : r.Ok) : r.num.Valid := by
  refine ⟨h.1, ?_⟩
  simp [StrainRow.num, h.2.1, Numeral.AllDigits]

set_option maxRecDepth 20000 in
theorem strainRows_cons (line : Str) (rest : List Str) (d : Dict Key PyVal) : strainRows (line :: rest) d = (
    match Res.ELASTIC_INTERNAL_STRAIN_RE.match_ line with
    | none => .error .attributeError
    | some m => do
      let atom ← atreg_match m
      let v ← numbersOf line
      let d ← MdGeom.appendTo d atom v
      strainRows rest d) := rfl

theorem strainRows_nil (d : Dict Key PyVal) : strainRows [] d = .ok d := rfl

attribute [local irreducible] strainRows

theorem get_numbers_of {line : Str} {ns : List Numeral} (h : HasNumbers line ns) (hv : ∀ n ∈ ns, n.Valid) : Res.get_numbers line = ns.map Numeral.text := by
  rcases h with ⟨rfl, hd⟩ | ⟨lead, l, -, rfl, rfl, h1, h2, h3⟩
  · rw [Castep.noDigit_numbers hd]; rfl
  · rw [Props.C30_complete lead l h1 (fun p hp => hv _ (List.mem_map_of_mem hp)) h2 (fun p hp => h3 p hp), List.map_map]; rfl

theorem strainRows_all {rd : Numeral → F64} : ∀ {ls : List Str} {rows : List StrainRow}, List.Forall₂ StrainRow.Line ls rows → (∀ r ∈ rows, r.Ok) →
    (∀ r ∈ rows, ∀ n ∈ r.num :: r.comps, parse_float_or_rational n.text = .ok (rd n)) → ∀ (u : PyVal) (l : List (Key × PyVal)),
    strainRows ls ((.str (py"units"), u) :: grouped l) =
      .ok ((.str (py"units"), u) :: grouped (l ++ rows.map fun r => (r.ion, ElPart.tuple rd (r.num :: r.comps)))) := by
  intro ls rows h
  induction h with
  | nil => intro _ _ u l; rw [strainRows_nil, List.map_nil, List.append_nil]
  | @cons x r ls rows h1 _ ih =>
    intro hok hr u l
    obtain ⟨m, hm, ha⟩ := strain_match h1 (hok r (by simp))
    have hn := numbersOf_of (strain_numbers h1 (hok r (by simp))) (by
      intro n hn
      rw [List.mem_cons] at hn
      rcases hn with rfl | hn
      · exact num_valid (hok r (by simp))
      · exact ((hok r (by simp)).2.2.2.2.2.2.2 n hn).1) (hr r (by simp))
    rw [strainRows_cons, hm]
    show (atreg_match m >>= fun atom => _) = _
    rw [ha]
    show (numbersOf x >>= fun v => _) = _
    rw [hn]
    show (MdGeom.appendTo ([(Key.str (py"units"), u)] ++ grouped l) r.ion _ >>= fun d => strainRows ls d) = _
    rw [grouped_add (by simp [Dict.keys, StrainRow.ion])]
    show strainRows ls ((Key.str (py"units"), u) :: grouped _) = _
    rw [ih (fun q hq => hok q (by simp [hq])) (fun q hq => hr q (by simp [hq])), List.append_assoc]
    rfl

theorem valRows_of {rd : Numeral → F64} : ∀ {ls : List Str} {rows : List (List Numeral)}, Interleaved NoDigit ElPart.Row ls rows → (∀ r ∈ rows, NumsOk r) →
    (∀ r ∈ rows, ∀ n ∈ r, parse_float_or_rational n.text = .ok (rd n)) → ∀ {last : Str}, NoDigit last →
    valRows (ls ++ [last]) = .ok (rows.map (ElPart.tuple rd)) := by
  intro ls rows h
  induction h with
  | nil => intro _ _ last hl; rw [List.nil_append, Magres.valRows_skip hl]; rfl
  | skip h1 _ ih => intro hok hr last hl; rw [List.cons_append, Magres.valRows_skip h1]; exact ih hok hr hl
  | @row l ls r rows h1 _ ih =>
    intro hok hr last hl
    have hv : ∀ n ∈ r, n.Valid := fun n hn => (hok r (by simp) n hn).1
    rw [List.cons_append, valRows, if_neg, numbersOf_of h1.1 hv (hr r (by simp)),
      ih (fun q hq => hok q (by simp [hq])) (fun q hq => hr q (by simp [hq])) hl]
    · rfl
    · rw [get_numbers_of h1.1 hv]; simpa using h1.2

/-! ### The file -/

theorem names_b : Names BEGIN_RE (py"BEGIN") := names_lit (by decide +kernel)
theorem names_e : Names END_RE (py"END") := names_lit (by decide +kernel)
theorem names_bs : Names BEGIN_STRAIN_RE (py"BEGIN Internal Strain") := names_lit (by decide +kernel)

theorem loop_cons (fuel : Nat) (line : Str) (rest : List Str) (accum : Dict Key PyVal) :
    loop (fuel + 1) (line :: rest) accum = (do
      match ← tryBlock (found BEGIN_HEADER_RE) (found END_HEADER_RE) line rest with
      | (some b, rest) => do
        let h ← parse_regular_header NO_EXTRA_RE b.rest
        let accum ← popEmpty (updateDict accum h)
        loop fuel rest accum
      | (none, rest) => do
        let (accum, rest) ← other line rest accum
        loop fuel rest accum) := rfl

theorem title_begin {words : List Str} {unit : Option Str} {l : Str} (h : ElPart.Title words unit l) : Occurs (py"BEGIN") l := by
  obtain ⟨g, name, -, -, -, -, h⟩ := h
  cases unit with
  | none => exact ⟨g, py" " ++ name, by rw [h]; simp⟩
  | some u =>
    obtain ⟨-, -, tail, h⟩ := h
    exact ⟨g, py" " ++ (name ++ 40 :: (u ++ 41 :: tail)), by rw [h]; simp⟩

theorem mem_merge {k : Key} : ∀ (e d : Dict Key PyVal), k ∈ Dict.keys d ∨ k ∈ Dict.keys e → k ∈ Dict.keys (merge d e) := by
  intro e
  induction e with
  | nil => intro d h; rcases h with h | h; exact h; cases h
  | cons p e ih =>
    intro d h
    refine ih (d.set p.1 p.2) ?_
    rcases h with h | h
    · exact .inl ((Dict.mem_keys_set _ _ _ _).2 (.inr h))
    · rcases List.mem_cons.1 h with h | h
      · exact .inl ((Dict.mem_keys_set _ _ _ _).2 (.inl h))
      · exact .inr h

/-- The numbers of a part. -/
def nums : ElPart → List Numeral
  | .header items => items.flatMap HeadItem.nums
  | .matrix _ _ rows => rows.flatten
  | .strain _ _ rows => rows.flatMap fun r => r.num :: r.comps
  | .other => []

/-- All parts of a file. -/
theorem loop_parts (rd : Numeral → F64) (parts : List ElPart) (ls : List (List Str)) (h : List.Forall₂ ElPart.Lines parts ls) (hok : ∀ p ∈ parts, p.Ok)
    (hrd : ∀ p ∈ parts, ∀ n ∈ nums p, parse_float_or_rational n.text = .ok (rd n)) :
    ∀ (info : Dict Key PyVal) (fuel : Nat), ls.flatten.length < fuel →
      loop fuel ls.flatten info = .ok (parts.foldl (ElPart.put rd fun r => r.num :: r.comps) info) := by
  induction h with
  | nil =>
    intro info fuel hf
    cases fuel with
    | zero => simp at hf
    | succ fuel => rfl
  | @cons p l parts ls hp _ ih =>
    intro info fuel hf
    have ih := ih (fun q hq => hok q (by simp [hq])) (fun q hq => hrd q (by simp [hq]))
    have hokp := hok p (by simp)
    have hrdp := hrd p (by simp)
    rw [List.flatten_cons, List.length_append] at hf
    rw [List.flatten_cons, List.foldl_cons]
    cases fuel with
    | zero => simp at hf
    | succ fuel =>
      cases p with
      | header items =>
        obtain ⟨⟨inner, first, last, hl, h1, h2, h3⟩, ps, hps, hfl⟩ := hp
        have hlen : 0 < l.length := by rw [hl]; simp
        have hh := regular_header NO_EXTRA_RE [] (looks_lit _ _ (by decide +kernel)) rd items ps hps
          (fun i hi n hn => hrdp n (List.mem_flatMap.2 ⟨i, hi, hn⟩))
        rw [← hfl, hl] at hh
        rw [hl, List.cons_append, List.append_assoc, loop_cons, show [last] ++ ls.flatten = last :: ls.flatten from rfl,
          tryBlock_enclosed Efield.names_bh Efield.names_eh (c := 66) (by decide) (by decide) h1 h2 h3]
        show (parse_regular_header NO_EXTRA_RE (first :: (inner ++ [last])) >>= fun h => popEmpty (updateDict info h) >>= fun a => loop fuel ls.flatten a) = _
        rw [hh]
        show (popEmpty (merge info (headerOf [] rd items)) >>= fun a => loop fuel ls.flatten a) = _
        obtain ⟨ns, hn⟩ := hokp.2
        have hm := Phonon.header_note (rd := rd) hn
        rw [popEmpty, if_pos]
        · exact ih _ fuel (by omega)
        · rw [Dict.mem, Option.isSome_iff_ne_none, ne_eq, Dict.get?_eq_none, not_not]
          rw [Dict.mem, Option.isSome_iff_ne_none, ne_eq, Dict.get?_eq_none, not_not] at hm
          exact mem_merge _ _ (.inr hm)
      | matrix words unit rows =>
        obtain ⟨hs, inner, first, last, hl, h1, h2, h3, h4, h5⟩ := hp
        have hlen : 0 < l.length := by rw [hl]; simp
        have m1 : ¬ Occurs (py"BEGIN header") first := hs _ (by simp) first (by rw [hl]; rfl)
        have m2 : ¬ Occurs (py"BEGIN Internal Strain") first := hs _ (by simp) first (by rw [hl]; rfl)
        rw [hl, List.cons_append, List.append_assoc, loop_cons, show [last] ++ ls.flatten = last :: ls.flatten from rfl,
          tryBlock_miss Efield.names_bh m1]
        show (other _ _ _ >>= _) = _
        rw [other, tryBlock_miss names_bs m2]
        show ((tryBlock _ _ _ _ >>= _) >>= _) = _
        rw [tryBlock_enclosed names_b names_e (c := 66) (by decide) (by decide) (title_begin h1) h2 h3]
        show ((valBlock ⟨0, 0, first :: (inner ++ [last])⟩ >>= fun kv => pure (info.set (.str kv.1) kv.2, ls.flatten)) >>= _) = _
        have hb : valBlock ⟨0, 0, first :: (inner ++ [last])⟩ =
            .ok (ElPart.key words, .dict [(.str (py"units"), ElPart.unitVal unit), (.str (py"val"), .tuple (rows.map (ElPart.tuple rd)))]) := by
          show (title first >>= fun p => valRows (inner ++ [last]) >>= fun vals => _) = _
          rw [title_match h1]
          show (valRows (inner ++ [last]) >>= fun vals => _) = _
          rw [valRows_of (rd := rd) h4 hokp (fun r hr n hn => hrdp n (List.mem_flatten.2 ⟨r, hr, hn⟩)) h5]
          rfl
        rw [hb]
        exact ih _ fuel (by omega)
      | strain words unit rows =>
        obtain ⟨hs, inner, first, last, hl, h0, h1, h2, h3, h4⟩ := hp
        have hlen : 0 < l.length := by rw [hl]; simp
        have m1 : ¬ Occurs (py"BEGIN header") first := hs _ (by simp) first (by rw [hl]; rfl)
        rw [hl, List.cons_append, List.append_assoc, loop_cons, show [last] ++ ls.flatten = last :: ls.flatten from rfl,
          tryBlock_miss Efield.names_bh m1]
        show (other _ _ _ >>= _) = _
        rw [other, tryBlock_enclosed names_bs names_e (c := 66) (by decide) (by decide) h0 h2 h3]
        show ((strainBlock ⟨0, 0, first :: (inner ++ [last])⟩ >>= fun kv => pure (info.set (.str kv.1) kv.2, ls.flatten)) >>= _) = _
        have hb : strainBlock ⟨0, 0, first :: (inner ++ [last])⟩ = .ok (ElPart.key words,
            .dict ((.str (py"units"), ElPart.unitVal unit) :: grouped (rows.map fun r => (r.ion, ElPart.tuple rd (r.num :: r.comps))))) := by
          have hsl : (Block.sliceBounds (first :: (inner ++ [last])) 0 1).tail = inner := by
            rw [Block.sliceBounds, if_neg (by decide)]
            simp
          show (title first >>= fun p => strainRows (Block.sliceBounds (first :: (inner ++ [last])) 0 1).tail [(.str (py"units"), p.2)] >>= fun d => _) = _
          rw [title_match h1, hsl]
          show (strainRows inner ((.str (py"units"), ElPart.unitVal unit) :: grouped []) >>= fun d => _) = _
          rw [strainRows_all (rd := rd) h4 (fun r hr => (hokp r hr).1) (fun r hr n hn => hrdp n (List.mem_flatMap.2 ⟨r, hr, hn⟩))]
          rfl
        rw [hb]
        exact ih _ fuel (by omega)
      | other =>
        obtain ⟨hs, hlen⟩ := hp
        obtain ⟨x, rfl⟩ := List.length_eq_one_iff.1 hlen
        have m : ¬ Occurs (py"BEGIN") x := hs _ (by simp) x rfl
        have m' : ∀ t, ¬ Occurs (py"BEGIN" ++ t) x := by
          rintro t ⟨u, v, rfl⟩
          exact m ⟨u, t ++ v, by simp⟩
        rw [List.cons_append, List.nil_append, loop_cons, tryBlock_miss Efield.names_bh (m' (py" header"))]
        show (other _ _ _ >>= _) = _
        rw [other, tryBlock_miss names_bs (m' (py" Internal Strain"))]
        show ((tryBlock _ _ _ _ >>= _) >>= _) = _
        rw [tryBlock_miss names_b m]
        exact ih _ fuel (by rw [hlen] at hf; omega)

end Verif.Elastic

import Verif.Lemmas.Row
import Verif.Lemmas.MdFrame
import Verif.Lemmas.Dict
import Verif.Model.CastepTables
import Verif.Spec.CastepRows
/- Rows of k-points and of bonds. -/
namespace Verif.Castep
open Verif Verif.Re Verif.NumRe Verif.AtomRe Verif.Spec

/-! ### Collecting rows -/

/-- Collect over rows among other lines. -/
theorem collect_rows {f : Str → PyM (Option α)} {g : β → Option α} {skip : Str → Prop} {Row : Str → β → Prop}
    (h1 : ∀ l, skip l → f l = .ok none) {ls : List Str} {rs : List β} (h : Interleaved skip Row ls rs)
    (h2 : ∀ l, ∀ r ∈ rs, Row l r → f l = .ok (g r)) :
    collect f ls = .ok (rs.filterMap g) := by
  induction h with
  | nil => rfl
  | skip hs _ ih => rw [collect, h1 _ hs]; exact ih h2
  | @row l ls r rs hr _ ih =>
    rw [collect, h2 _ _ (by simp) hr]
    have := ih fun l r hr => h2 l r (by simp [hr])
    cases hg : g r with
    | none => rw [List.filterMap_cons_none hg]; exact this
    | some x =>
      rw [List.filterMap_cons_some hg]
      show (do let xs ← collect f ls; return x :: xs) = _
      rw [this]; rfl

theorem digit_of_N {w : Str} (h : Lang N w) : ∃ c ∈ w, 48 ≤ c ∧ c ≤ 57 := by
  obtain ⟨-, -, h⟩ := lang_N_word h
  simp only [hasDigit, List.any_eq_true] at h
  obtain ⟨c, hc, hd⟩ := h
  exact ⟨c, hc, by simpa using hd⟩

/-! ### K-points -/

/-- `kp_block_re` -/
abbrev KP : Re := .seq .bol (.seq (star sp) (.seq (star sp) (.seq (.set (ch 43)) (.seq (star sp) (.seq (.set dig)
  (.seq (star sp) (.seq (LF 1) (.seq (LF 2) (.seq (LF 3) (.seq (LF 4) (.seq (star sp) (.seq (.set (ch 43))
  (.seq (star sp) (.seq (star sp) .eol))))))))))))))

theorem KPOINT_eq : KPOINT_RE = ⟨KP, [(py"qx", 1), (py"qy", 2), (py"qz", 3), (py"wt", 4)], 4⟩ := by decide +kernel

/-- A row with a number of one digit. -/
theorem kp_gets {l : Str} {d : Nat} {x y z w : Numeral} (hd : dig.has d = true)
    (h : Fields l [py"+", [d], x.text, y.text, z.text, w.text, py"+"])
    (hx : x.Valid) (hy : y.Valid) (hz : z.Valid) (hw : w.Valid) :
    Gets KP [] l [] (· = [(4, w.text), (3, z.text), (2, y.text), (1, x.text)]) := by
  apply Gets.bol
  refine Gets.start h clear_nil fun p1 s1 _ h1 => ?_
  refine Gets.skip (w := py"+") (by simp) (by decide) ?_
  refine Gets.char (s := s1) (by rw [has_ch]; rfl) ?_
  refine Gets.gap h1 fun p2 s2 _ h2 => ?_
  refine Gets.char hd ?_
  refine Gets.gapNum h2 hx fun p3 s3 h3 => ?_
  refine Gets.num h3 hy fun p4 s4 h4 => ?_
  refine Gets.num h4 hz fun p5 s5 h5 => ?_
  refine Gets.num h5 hw fun p6 s6 h6 => ?_
  refine Gets.gap h6 fun p7 s7 _ h7 => ?_
  refine Gets.char (s := s7) (by rw [has_ch]; rfl) ?_
  exact Gets.finish h7 rfl

theorem blank_star {w : Str} (h : Lang (star sp) w) : Blank w := by
  rw [lang_rep_set] at h
  intro c hc
  rw [← has_sp]; exact h.1 c hc

/-- What a match tells about the line. -/
theorem kp_lang {p : Pat} (hp : p.re = KP) {l : Str} {m : Match} (h : p.match_ l = some m) :
    ∃ g1 g2 d g3 t, l = g1 ++ (43 :: (g2 ++ (d :: (g3 ++ t)))) ∧ Blank g1 ∧ Blank g2 ∧ dig.has d = true ∧ Blank g3 ∧ g3 ≠ [] ∧
      ∃ c ∈ l, 48 ≤ c ∧ c ≤ 57 := by
  obtain ⟨b, e, hl⟩ := match_found h
  rw [hp] at hl
  obtain ⟨u0, v0, e0, hu0, u1, v1, e1, hu1, u2, v2, e2, hu2, u3, v3, e3, ⟨c3, hc3, e3'⟩, u4, v4, e4, hu4, u5, v5, e5, ⟨c5, hc5, e5'⟩,
    u6, v6, e6, hu6, u7, v7, e7, hu7, -⟩ := hl
  obtain ⟨g, n, e8, hg, hgne, hN⟩ := lang_gapNum hu7
  have h0 : u0 = [] := hu0
  have h3 : c3 = 43 := by rw [has_ch] at hc3; simpa using hc3
  subst h0 h3
  have key : l = (u1 ++ u2) ++ (43 :: (u4 ++ (c5 :: ((u6 ++ g) ++ (n ++ (v7 ++ b)))))) := by
    rw [e, e0, e1, e2, e3, e3', e4, e5, e5', e6, e7, e8]; simp
  refine ⟨u1 ++ u2, u4, c5, u6 ++ g, n ++ (v7 ++ b), key, ?_, blank_star hu4, hc5, ?_, by simp [hgne], c5, by rw [key]; simp, ?_⟩
  · intro c hc
    rcases List.mem_append.1 hc with hc | hc
    · exact blank_star hu1 c hc
    · exact blank_star hu2 c hc
  · intro c hc
    rcases List.mem_append.1 hc with hc | hc
    · exact blank_star hu6 c hc
    · exact hg c hc
  · have := hc5; rw [has_dig] at this; exact (isDigit_iff _).1 this

/-- The number of the k-point must have one digit. -/
theorem kp_one {p : Pat} (hp : p.re = KP) {l idx : Str} {ws : List Str} (h : Fields l (py"+" :: idx :: ws)) {m : Match}
    (hm : p.match_ l = some m) : idx.length = 1 := by
  obtain ⟨g1, g2, d, g3, t, e, b1, b2, hd, b3, hne, -⟩ := kp_lang hp hm
  have hds : isSpace d = false := isDigit_not_space (by rwa [has_dig] at hd)
  have key : Fields (d :: (g3 ++ t)) ([d] :: Str.split t) :=
    fields_gap (a := [d]) (ws := [[d]]) (fields_word (by simp) (by intro c hc; simp at hc; subst hc; exact hds)) b3 hne (split_fields t)
  by_cases hg : g2 = []
  · subst hg
    have : Fields l ([43, d] :: Str.split t) := by
      rw [e]
      refine fields_prepend b1 ?_
      exact fields_gap (a := [43, d]) (ws := [[43, d]]) (fields_word (by simp) (by
        intro c hc; simp at hc; rcases hc with rfl | rfl; exacts [by decide, hds])) b3 hne (split_fields t)
    have := fields_unique h this
    simp at this
  · have : Fields l ([43] :: [d] :: Str.split t) := by
      rw [e]
      refine fields_prepend b1 ?_
      exact fields_gap (a := [43]) (ws := [[43]]) (fields_word (by simp) (by decide)) b2 hg key
    have := fields_unique h this
    simp at this
    rw [this.1]; rfl

theorem floatTuple {rd : Numeral → F64} {ns : List Numeral} (h : ∀ n ∈ ns, parse_float_or_rational n.text = .ok (rd n)) :
    to_type .float (.tuple (ns.map fun n => .str n.text)) = .ok (.tuple (ns.map fun n => .float (rd n))) := by
  have := to_type_strList .float ns (fun n => n.text) (fun n => .float (rd n)) fun n hn => typeParser_float (h n hn)
  rw [strList] at this
  simpa [to_type, List.map_map, Function.comp_def] using this

/-- The text of a named group. -/
def got (names : List (Str × Nat)) (C : List (Nat × Str)) (k : Str) : Option Str :=
  match names.find? (·.1 = k) with
  | some (_, n) => (C.find? (·.1 = n)).map (·.2)
  | none => none

theorem named_eq {m : Match} {names : List (Str × Nat)} {C : List (Nat × Str)} (hc : m.caps = C) (hn : m.names = names)
    (k : Str) : m.named k = got names C k := by
  subst hc hn
  rfl

/-- One row of k-points. -/
theorem kp_row {rd : Numeral → F64} {l : Str} {r : KRow} (hl : r.Line l) (hok : r.Ok)
    (hrd : ∀ n ∈ [r.x, r.y, r.z, r.w], parse_float_or_rational n.text = .ok (rd n)) :
    onMatch KPOINT_RE kpoint l =
      .ok (if r.idx.length = 1 then some (r.entry rd fun _ => rd r.x) else none) := by
  obtain ⟨idx, x, y, z, w⟩ := r
  obtain ⟨h1, h2, h3⟩ := hok
  simp only [KRow.Line, List.mem_cons, List.not_mem_nil, or_false, forall_eq_or_imp, forall_eq] at *
  obtain ⟨⟨vx, -⟩, ⟨vy, -⟩, ⟨vz, -⟩, ⟨vw, -⟩⟩ := h3
  obtain ⟨rx, ry, rz, rw'⟩ := hrd
  split
  · rename_i h4
    obtain ⟨d, rfl⟩ := List.length_eq_one_iff.1 h4
    have hd : dig.has d = true := (allDigits_iff _).1 h1 d (by simp)
    have hp : KPOINT_RE.re = KP := by rw [KPOINT_eq]
    obtain ⟨m, e1, e2, e3⟩ := Gets.match_ (p := KPOINT_RE) (by rw [hp]; exact kp_gets hd hl vx vy vz vw)
    rw [KPOINT_eq] at e3
    have hq : to_type .float (.tuple (KPOINT_GROUPS.map fun g => optStr (m.named g))) =
        .ok (.tuple [.float (rd x), .float (rd y), .float (rd x)]) := by
      rw [KPOINT_GROUPS, List.map_cons, List.map_cons, List.map_cons, List.map_nil, named_eq e2 e3, named_eq e2 e3]
      exact floatTuple (ns := [x, y, x]) (by
        intro n hn; simp at hn
        rcases hn with rfl | rfl | rfl <;> assumption)
    have hw : to_type .float (optStr (m.named (py"wt"))) = .ok (.float (rd w)) := by
      rw [named_eq e2 e3]
      exact MdFrame.to_type_reads rw'
    unfold onMatch
    rw [e1]
    show (do let x ← kpoint m; return some x) = _
    rw [kpoint, hq]
    show (do let x ← (do let w ← to_type .float (optStr (m.named (py"wt"))); _); return some x) = _
    rw [hw]
    rfl
  · rename_i h4
    unfold onMatch
    cases hm : KPOINT_RE.match_ l with
    | none => rfl
    | some m => exact absurd (kp_one (by rw [KPOINT_eq]) hl hm) h4

theorem kp_skip {l : Str} (h : NoDigit l) : onMatch KPOINT_RE kpoint l = .ok none := by
  unfold onMatch
  cases hm : KPOINT_RE.match_ l with
  | none => rfl
  | some m =>
    obtain ⟨-, -, -, -, -, -, -, -, -, -, -, c, hc, hd⟩ := kp_lang (by rw [KPOINT_eq]) hm
    exact absurd hd (h c hc)

/-! ### Bonds -/

/-- The optional spin. -/
abbrev OS : Re := .group 6 (.rep true 0 (some 1) (.seq (.rep false 1 none (.set sp)) N))

/-- `BOND_RE` -/
abbrev BD : Re := .seq (star sp) (.seq (.group 1 A) (.seq (star sp) (.seq (.group 2 (plus dig)) (.seq (star sp)
  (.seq (.set (ch 45)) (.seq (.set (ch 45)) (.seq (star sp) (.seq (.group 3 A) (.seq (star sp) (.seq (.group 4 (plus dig)) (.seq (star sp)
  (.seq (LF 5) (.seq OS (LF 7))))))))))))))

theorem BOND_eq : Res.BOND_RE = ⟨BD,
  [(py"spec1", 1), (py"ind1", 2), (py"spec2", 3), (py"ind2", 4), (py"population", 5), (py"spin", 6), (py"length", 7)], 7⟩ := by
  decide +kernel

/-- Two numbers after gaps are two fields. -/
theorem two_fields {w s : Str} {i : Nat} {v : Str} (h1 : Lang (.seq (.rep false 1 none (.set sp)) N) v) (h2 : Lang (LF i) w) :
    ∃ a b ws, Fields (v ++ (w ++ s)) (a :: b :: ws) := by
  obtain ⟨g1, n1, rfl, b1, hg1, l1⟩ := lang_gapNum h1
  obtain ⟨g2, n2, rfl, b2, hg2, l2⟩ := lang_gapNum h2
  obtain ⟨hn1, hw1, -⟩ := lang_N_word l1
  obtain ⟨hn2, hw2, -⟩ := lang_N_word (show Lang N n2 from l2)
  obtain ⟨w', ws, hf, -⟩ := fields_start (b := s) hn2 hw2
  refine ⟨n1, w', ws, ?_⟩
  have : Fields (n1 ++ (g2 ++ (n2 ++ s))) (n1 :: w' :: ws) := fields_gap (fields_word hn1 hw1) b2 hg2 hf
  have := fields_prepend b1 this
  simpa using this

theorem run_opt_fail {β : Type} (r : Re) (s : St) (k : St → Option β)
    (h : ∀ w t, Step (groupsOf r) s t w → Lang r w → k t = none) : run (.rep true 0 (some 1) r) s k = k s := by
  rw [run_rep_greedy, if_neg (by simp), if_pos rfl, run_none, Option.none_or]
  intro w t hs hw
  split
  · rw [run_rep_greedy]
    simp [h w t hs hw]
  · rfl

/-- The spin and the length. -/
theorem spin_gets {pre s : Str} {caps} {q : Option Numeral} {n : Numeral} (hs : ∀ x ∈ q, x.Valid) (hn : n.Valid)
    (h : After s (q.toList.map Numeral.text ++ [n.text])) :
    Gets (.seq OS (LF 7)) pre s caps fun C =>
      ∃ g, Blank g ∧ (q = none → g = []) ∧ C = (7, n.text) :: (6, g ++ (q.map Numeral.text).getD []) :: caps := by
  cases q with
  | some q =>
    have hq := hs q rfl
    simp only [Option.toList_some, List.map_cons, List.map_nil, List.cons_append, List.nil_append] at h
    obtain ⟨g, s', rfl, h1, hg, h2, h3, h4⟩ := h.next
    obtain ⟨g2, s2, rfl, h21, hg2, h22, h23, h24⟩ := h4.next
    refine ⟨⟨(g2 ++ n.text).reverse ++ ((g ++ q.text).reverse ++ pre), s2, _⟩, ?_, g, h1, by simp, rfl⟩
    rw [run_seq, run_group]
    apply run_opt_take
    refine run_SN g q h1 hg hq _ _ _ _ _ h4.endsNumber ?_
    rw [if_pos (by
      have := List.length_pos_of_ne_nil hg
      simp; omega)]
    refine run_LF 7 g2 n h21 hg2 hn _ _ _ _ _ h24.endsNumber ?_
    have e : (⟨pre, g ++ (q.text ++ (g2 ++ (n.text ++ s2))), caps⟩ : St).upTo
        ⟨(g ++ q.text).reverse ++ pre, g2 ++ (n.text ++ s2), caps⟩ = g ++ q.text := by
      rw [← List.append_assoc g]; exact upTo_append _ _ _ _ _
    rw [e]; rfl
  | none =>
    simp only [Option.toList_none, List.map_nil, List.nil_append] at h
    obtain ⟨g, s', rfl, h1, hg, h2, h3, h4⟩ := h.next
    refine ⟨⟨(g ++ n.text).reverse ++ pre, s', (7, n.text) :: (6, []) :: caps⟩, ?_, [], fun c hc => by simp at hc, fun _ => rfl, rfl⟩
    rw [run_seq, run_group, run_opt_fail]
    · refine run_LF 7 g n h1 hg hn _ _ _ _ _ h4.endsNumber ?_
      have e : (⟨pre, g ++ (n.text ++ s'), caps⟩ : St).upTo ⟨pre, g ++ (n.text ++ s'), caps⟩ = [] := by
        simpa using upTo_append pre [] (g ++ (n.text ++ s')) caps caps
      rw [e]
    · intro w t hst hw
      apply run_none
      intro w2 t2 hst2 hw2
      exfalso
      have e1 := hst.post
      have e2 := hst2.post
      simp only at e1 e2
      obtain ⟨a, b, ws, hf⟩ := two_fields (s := t2.post) hw hw2
      rw [e2] at e1
      have := fields_unique h.2 (e1 ▸ hf)
      simp at this

/-- A row of bonds. -/
theorem bd_gets {l : Str} {r : BondRow} (h : r.Line l) (hok : r.Ok) :
    Gets BD [] l [] fun C => ∃ g, Blank g ∧ (r.spin = none → g = []) ∧ C = [(7, r.length.text), (6, g ++ (r.spin.map Numeral.text).getD []),
      (5, r.population.text), (4, r.j), (3, r.b.text), (2, r.i), (1, r.a.text)] := by
  obtain ⟨a, i, b, j, n, q, m⟩ := r
  obtain ⟨ha, hb, hla, hlb, hi, hine, hj, hjne, hnum⟩ := hok
  simp only at *
  simp only [BondRow.Line, List.cons_append, List.nil_append] at h
  have hn : n.Valid := (hnum n (by simp)).1
  have hm : m.Valid := (hnum m (by simp)).1
  have hq : ∀ x ∈ q, x.Valid := fun x hx => (hnum x (by
    rw [Option.mem_def] at hx; subst hx; simp)).1
  have hd : ∀ (d : Str), Numeral.AllDigits d → d.head? ≠ some 91 := by
    intro d hd hh
    have := hd 91 (List.mem_of_head? hh)
    omega
  refine Gets.start h clear_nil fun p1 s1 c1 h1 => ?_
  refine Gets.atom ha hla c1 h1 (hd i hi) ?_
  refine Gets.gap h1 fun p2 s2 _ h2 => ?_
  refine Gets.digits hi hine h2 ?_
  refine Gets.gap h2 fun p3 s3 _ h3 => ?_
  refine Gets.char (s := 45 :: s3) (by rw [has_ch]; rfl) ?_
  refine Gets.char (by rw [has_ch]; rfl) ?_
  refine Gets.gap h3 fun p4 s4 c4 h4 => ?_
  refine Gets.atom hb hlb c4 h4 (hd j hj) ?_
  refine Gets.gap h4 fun p5 s5 _ h5 => ?_
  refine Gets.digits hj hjne h5 ?_
  refine Gets.gapNum h5 hn fun p6 s6 h6 => ?_
  exact spin_gets hq hm h6

/-- One row of bonds. -/
theorem bd_row {fl : Numeral → F64} {l : Str} {r : BondRow} (hl : r.Line l) (hok : r.Ok)
    (hfl : ∀ n ∈ [r.population, r.length] ++ r.spin.toList, pyFloat n.text = .ok (fl n)) :
    onMatch Res.BOND_RE bond l = .ok (some (r.key, r.entry fl fun n => (PyVal.float (fl n)).truthy)) := by
  have hp : Res.BOND_RE.re = BD := by rw [BOND_eq]
  obtain ⟨m, e1, ⟨g, hg, hg0, e2⟩, e3⟩ := Gets.match_ (p := Res.BOND_RE) (by rw [hp]; exact bd_gets hl hok)
  rw [BOND_eq] at e3
  obtain ⟨ha, hb, hla, hlb, hi, hine, hj, hjne, hnum⟩ := hok
  unfold onMatch
  rw [e1]
  show (do let x ← bond m; return some x) = _
  have n1 : m.named (py"ind1") = some r.i := by rw [named_eq e2 e3]; rfl
  have n2 : m.named (py"ind2") = some r.j := by rw [named_eq e2 e3]; rfl
  have n3 : grpFloat m (py"population") = .ok (.float (fl r.population)) := by
    rw [grpFloat, grp, named_eq e2 e3]
    show floatV r.population.text = _
    rw [floatV, hfl _ (by simp)]; rfl
  have n4 : grpFloat m (py"length") = .ok (.float (fl r.length)) := by
    rw [grpFloat, grp, named_eq e2 e3]
    show floatV r.length.text = _
    rw [floatV, hfl _ (by simp)]; rfl
  have n5 : bondSpin m = .ok ((r.spin.filter fun n => (PyVal.float (fl n)).truthy).map fun n => .float (fl n)) := by
    have e : m.named (py"spin") = some (g ++ (r.spin.map Numeral.text).getD []) := by rw [named_eq e2 e3]; rfl
    unfold bondSpin
    rw [e]
    cases hs : r.spin with
    | none => rw [hg0 hs]; rfl
    | some q =>
      have hv := (hnum q (by rw [hs]; simp)).1
      have hx : pyFloat (g ++ q.text) = .ok (fl q) := by
        have := pyFloat_pad q.text g [] hg (fun c hc => by simp at hc) (text_nospace q hv)
        rw [List.append_nil] at this
        rw [this, hfl q (by rw [hs]; simp)]
      have hne : g ++ q.text ≠ [] := by
        have := text_ne_nil q hv
        simp [this]
      show (match some (g ++ q.text) with | some (c :: s) => _ | _ => _) = _
      cases hgq : g ++ q.text with
      | nil => exact absurd hgq hne
      | cons c s =>
        rw [hgq] at hx
        show (do let x ← pyFloat (c :: s); _) = _
        rw [hx]
        by_cases ht : (PyVal.float (fl q)).truthy = true
        · simp [ht, Option.filter]
        · simp [ht, Option.filter]
  have n6 : grpKey m (py"spec1") = .str r.a.text := by rw [grpKey, named_eq e2 e3]; rfl
  have n7 : grpKey m (py"spec2") = .str r.b.text := by rw [grpKey, named_eq e2 e3]; rfl
  rw [bond, n1, MdFrame.intOfGroup_digits _ hi hine]
  show (do let x ← (do let j ← intOfGroup (m.named (py"ind2")); _); return some x) = _
  rw [n2, MdFrame.intOfGroup_digits _ hj hjne]
  show (do let x ← (do let population ← grpFloat m (py"population"); _); return some x) = _
  rw [n3]
  show (do let x ← (do let spin ← bondSpin m; _); return some x) = _
  rw [n5]
  show (do let x ← (do let length ← grpFloat m (py"length"); _); return some x) = _
  rw [n4, n6, n7, BondRow.entry]
  cases r.spin.filter fun n => (PyVal.float (fl n)).truthy <;> rfl

/-- A match has a digit. -/
theorem bd_lang {p : Pat} (hp : p.re = BD) {l : Str} {m : Match} (h : p.match_ l = some m) : ∃ c ∈ l, 48 ≤ c ∧ c ≤ 57 := by
  obtain ⟨b, e, hl⟩ := match_found h
  rw [hp] at hl
  obtain ⟨u0, v0, e0, hu0, u1, v1, e1, hu1, u2, v2, e2, hu2, u3, v3, e3, hu3, -⟩ := hl
  have hu3 : Lang (plus dig) u3 := hu3
  rw [lang_rep_set] at hu3
  obtain ⟨hd, hlen, -⟩ := hu3
  cases u3 with
  | nil => simp at hlen
  | cons c u3 =>
    have hc := hd c (by simp)
    rw [has_dig] at hc
    exact ⟨c, by rw [e, e0, e1, e2, e3]; simp, (isDigit_iff _).1 hc⟩

/-- Lines without digits are no bonds. -/
theorem bd_skip {l : Str} (h : NoDigit l) : onMatch Res.BOND_RE bond l = .ok none := by
  unfold onMatch
  cases hm : Res.BOND_RE.match_ l with
  | none => rfl
  | some m =>
    obtain ⟨c, hc, hd⟩ := bd_lang (by rw [BOND_eq]) hm
    exact absurd hd (h c hc)

theorem mag_zero (b : Nat) : F64.mag b = 0 ↔ b = 0 := by
  rw [F64.mag]
  have h2 : ((2 : ℚ) ^ 1074) ≠ 0 := pow_ne_zero _ (by norm_num)
  split
  · rw [div_eq_zero_iff]
    constructor
    · rintro (h | h)
      · exact_mod_cast h
      · exact absurd h h2
    · rintro rfl; left; rfl
  · rename_i h
    constructor
    · intro h0
      exfalso
      rw [div_eq_zero_iff, mul_eq_zero] at h0
      rcases h0 with (h0 | h0) | h0
      · have : (2 ^ 52 + b % 2 ^ 52 : ℕ) = 0 := by exact_mod_cast h0
        omega
      · exact pow_ne_zero _ (by norm_num) h0
      · exact h2 h0
    · rintro rfl; simp at h

/-- A double is true unless it is zero. -/
theorem truthy_iff (x : F64) : (PyVal.float x).truthy = true ↔ x.toRat ≠ 0 := by
  have hx := x.bits.isLt
  simp only [PyVal.truthy, F64.magBits, bne_iff_ne, ne_eq, F64.toRat]
  split
  · rw [mag_zero, Nat.mod_eq_of_lt (by assumption)]
  · rw [neg_eq_zero, mag_zero]
    constructor <;> intro h h' <;> apply h <;> omega

/-- A number that is a double is read as such. -/
theorem nearest_exact {q : ℚ} {x : F64} (y : F64) (hy : y.Finite) (hq : y.toRat = q) (h : F64.Nearest q x) : x.toRat = q := by
  have := h.closest y hy
  rw [hq, sub_self, abs_zero] at this
  exact sub_eq_zero.1 (abs_eq_zero.1 (le_antisymm this (abs_nonneg _)))

/-- The double nearest to zero is zero. -/
theorem nearest_zero {x : F64} (h : F64.Nearest 0 x) : x.toRat = 0 := by
  have := h.closest ⟨0⟩ (by decide)
  have h0 : (⟨0⟩ : F64).toRat = 0 := by rw [F64.toRat, if_pos (by decide)]; exact (mag_zero _).2 rfl
  rw [h0] at this
  simpa using this

end Verif.Castep

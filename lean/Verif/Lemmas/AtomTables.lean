import Verif.Lemmas.Mulliken
import Verif.Lemmas.Elastic
import Verif.Model.CastepBlocks
import Verif.Spec.AtomTables
/- Tables with a row for each atom. -/
namespace Verif
open Re NumRe AtomRe Spec Castep

/-- The start of the line of an atom, after something else. -/
theorem Gets.atomLineAt {r : Re} {i j : Nat} {a : AtomName} {l d : Str} {ws : List Str} {pre caps C} (hl : IonLine l a (d :: ws)) (ha : a.Valid)
    (hi : Indented l) (hd : Numeral.AllDigits d) (hne : d ≠ [])
    (h : ∀ pre s, After s ws → Gets r pre s ((j, d) :: (i, a.text) :: caps) C) :
    Gets (.seq (star sp) (.seq (.group i A) (.seq (plus sp) (.seq (.group j (plus dig)) r)))) pre l caps C := by
  obtain ⟨g, s, rfl, hg, hs, hf⟩ := hl
  have hgne : g ≠ [] := by
    rintro rfl
    obtain ⟨c, t, e, hc⟩ := hi
    obtain ⟨c', t', e', h1, h2⟩ := atomName_head ha
    rw [List.nil_append, e', List.cons_append] at e
    injection e with e _
    rw [← e] at hc
    revert hc
    simp [isSpace]
    omega
  have haft : After s (d :: ws) := ⟨hs, hf⟩
  have hd91 : d.head? ≠ some 91 := by
    cases d with
    | nil => exact absurd rfl hne
    | cons c d =>
      intro hc
      cases hc
      have := hd 91 (by simp)
      omega
  have key : Gets (.seq (.group i A) (.seq (plus sp) (.seq (.group j (plus dig)) r))) (g.reverse ++ pre) (a.text ++ s) caps C := by
    refine Gets.atomL ha (clear_gap hg (.inl hgne)) haft hd91 ?_
    refine Gets.gap1 haft fun pre' s' hp h' => ?_
    exact Gets.digits hd hne h' (h _ _ h')
  obtain ⟨t, h5, h6⟩ := key
  refine ⟨t, ?_, h6⟩
  rw [run_seq]
  exact run_star_all sp g _ _ _ _ _ _ (fun c hc => by rw [has_sp]; exact hg c hc) (atomName_stops ha s) (by simp) h5

/-! ### Numbers with a point -/

/-- A number with a point, of which an exponent is left. -/
theorem run_point {n : Numeral} (hn : n.Valid) (hp : HasPoint n) (pre s : Str) (caps) (k : St → Option β) (x : β)
    (hs : ∀ c, s.head? = some c → isSpace c = true)
    (hk : k ⟨(mantissa n).text.reverse ++ pre, Numeral.expText n.exp ++ s, caps⟩ = some x) :
    run F ⟨pre, n.text ++ s, caps⟩ k = some x := by
  obtain ⟨sg, ip, fr, ex⟩ := n
  cases fr with
  | none => exact absurd rfl hp
  | some fr =>
    obtain ⟨h1, h2, h3, h4⟩ := hn
    have e : (⟨sg, ip, some fr, ex⟩ : Numeral).text ++ s = Numeral.signText sg ++ ip ++ 46 :: fr ++ (Numeral.expText ex ++ s) := by
      simp [Numeral.text, Numeral.fracText]
    rw [e]
    refine run_F sg ip fr pre _ caps k x h1 h2 h3 ?_ ?_
    · intro c hc
      rw [has_dig]
      cases ex with
      | none =>
        have := hs c (by simpa [Numeral.expText] using hc)
        cases hd : isDigit c with
        | false => rfl
        | true => exact absurd ((isDigit_iff c).1 hd) (MdFrame.space_facts this).1
      | some y =>
        obtain ⟨u, s', ds⟩ := y
        cases u <;> (simp [Numeral.expText] at hc; subst hc; rfl)
    · simpa [mantissa, Numeral.text, Numeral.fracText, Numeral.expText] using hk

theorem mantissa_valid {n : Numeral} (h : n.Valid) : (mantissa n).Valid := ⟨h.1, h.2.1, h.2.2.1, fun _ he => by cases he⟩

theorem mantissa_none {n : Numeral} (h : n.exp = none) : mantissa n = n := by
  obtain ⟨a, b, c, d⟩ := n
  cases h
  rfl

/-- A number with a point as the last thing wanted. -/
theorem Gets.point {i : Nat} {n : Numeral} {s : Str} {pre caps} {C : List (Nat × Str) → Prop} (hn : n.Valid) (hp : HasPoint n)
    (hs : ∀ c, s.head? = some c → isSpace c = true) (h : C ((i, (mantissa n).text) :: caps)) :
    Gets (.group i F) pre (n.text ++ s) caps C := by
  have e : n.text = (mantissa n).text ++ Numeral.expText n.exp := by
    simp [mantissa, Numeral.text, Numeral.expText]
  refine ⟨⟨(mantissa n).text.reverse ++ pre, Numeral.expText n.exp ++ s, (i, (mantissa n).text) :: caps⟩, ?_, h⟩
  rw [run_group]
  apply run_point hn hp _ _ _ _ _ hs
  rw [e, List.append_assoc, upTo_append]

/-- The first way of matching is taken if what follows allows it. -/
theorem run_first {r : Re} {s t : St} {k : St → Option β} {x : β} (h : run r s some = some t) (hk : k t = some x) : run r s k = some x := by
  rw [← head?_eq_run] at h
  unfold run
  cases hm : m r s with
  | nil => rw [hm] at h; cases h
  | cons a l => rw [hm] at h; cases h; rw [List.findSome?_cons, hk]

/-- An optional part that is there. -/
theorem Gets.optTake {x : Re} {s t : St} {C : List (Nat × Str) → Prop} (h : run x s some = some t) (hlt : t.post.length < s.post.length)
    (hC : C t.caps) : Gets (optR x) s.pre s.post s.caps C := by
  refine ⟨t, ?_, hC⟩
  rw [run_rep_greedy, if_neg (by simp)]
  rw [run_first h (x := t)]
  · rfl
  · rw [if_pos hlt, run_rep_greedy]
    simp

/-- A single character in a group of its own. -/
theorem Gets.one {r : Re} {i c : Nat} {cs : CSet} {s pre : Str} {caps C} (hc : cs.has c = true) (h : Gets r (c :: pre) s ((i, [c]) :: caps) C) :
    Gets (.seq (.group i (.set cs)) r) pre (c :: s) caps C := by
  obtain ⟨t, h5, h6⟩ := h
  refine ⟨t, ?_, h6⟩
  rw [run_seq, run_group, run_set_cons, if_pos hc]
  have := upTo_append pre [c] s caps caps
  simp only [List.cons_append, List.nil_append, List.reverse_cons, List.reverse_nil] at this
  simp only [this]
  exact h5

namespace IonTab

/-! ### Hirshfeld charges -/

abbrev HIR : Re := .seq (plus sp) (.seq (.group 1 A) (.seq (plus sp) (.seq (.group 2 (plus dig)) (.seq (plus sp) (.group 3 F)))))
theorem HIR_eq : HIRSHFELD_RE = ⟨HIR, [(py"spec", 1), (py"index", 2), (py"charge", 3)], 3⟩ := by decide +kernel

theorem hir_match {l : Str} {r : IonRow} {n : Numeral} (hl : IonRow.Line l r) (hok : r.Ok 1) (hn : r.nums = [n]) (hp : HasPoint n) :
    ∃ m, HIRSHFELD_RE.match_ l = some m ∧ m.caps = [(3, (mantissa n).text), (2, r.idx), (1, r.name.text)] ∧
      m.names = [(py"spec", 1), (py"index", 2), (py"charge", 3)] := by
  obtain ⟨hi, more, hl⟩ := hl
  rw [hn] at hl
  rw [HIR_eq]
  refine Gets.match_ (C := (· = _)) ?_
  refine Gets.atomLine1 hl hok.1 hi hok.2.1 hok.2.2.1 fun pre s hs => ?_
  refine Gets.gap1 (w := n.text) hs fun pre' s' _ h' => ?_
  exact Gets.point (hok.2.2.2.2 n (by simp [hn])).1 hp h'.1 rfl

/-- A pattern that begins with an atom and its number does not match a line without digits. -/
theorem atom_miss {p : Pat} {x : Re} {i j : Nat} {y : Re} (hp : p.re = .seq x (.seq (.group i A) (.seq (plus sp) (.seq (.group j (plus dig)) y))))
    {l : Str} (h : NoDigit l) : p.match_ l = Option.none := by
  cases hm : p.match_ l with
  | none => rfl
  | some m =>
    obtain ⟨b, e, hl⟩ := match_found hm
    rw [hp] at hl
    obtain ⟨u1, v1, e1, -, u2, v2, rfl, -, u3, v3, rfl, -, h4⟩ := hl
    obtain ⟨d, v, rfl, hd⟩ := Tddft.lang_digits h4
    exact absurd hd (h d (by rw [e, e1]; simp))

theorem hir_line {l : Str} {r : IonRow} {n : Numeral} {fl : Numeral → F64} (hl : IonRow.Line l r) (hok : r.Ok 1) (hn : r.nums = [n]) (hp : HasPoint n)
    (hr : pyFloat (mantissa n).text = .ok (fl (mantissa n))) :
    onMatch HIRSHFELD_RE (fun m => do
      let ind ← atreg_match m
      let v ← grpFloat m (py"charge")
      return (ind, v)) l = .ok (some (r.key, .float (fl (mantissa n)))) := by
  obtain ⟨m, h1, h2, h3⟩ := hir_match hl hok hn hp
  have e1 : m.named (py"spec") = some r.name.text := by rw [Castep.named_eq h2 h3]; rfl
  have e2 : m.named (py"index") = some r.idx := by rw [Castep.named_eq h2 h3]; rfl
  have e3 : m.named (py"charge") = some (mantissa n).text := by rw [Castep.named_eq h2 h3]; rfl
  have e4 : atreg_match m = .ok r.key := by
    rw [atreg_match, e2, e1, MdFrame.intOfGroup_digits r.idx hok.2.1 hok.2.2.1]; rfl
  have e5 : grpFloat m (py"charge") = .ok (.float (fl (mantissa n))) := by
    rw [grpFloat, grp, e3]
    show (do let x ← pyFloat (mantissa n).text; pure (PyVal.float x) : PyM PyVal) = _
    rw [hr]
    rfl
  unfold onMatch
  rw [h1]
  simp only [e4, e5]
  rfl

/-! ### Initial spins -/

abbrev tf : CSet := ⟨false, [.ch 84, .ch 70], false⟩
abbrev SPIN : Re := .seq (star sp) (.seq (.set (ch 124)) (.seq (star sp) (.seq (.group 1 A) (.seq (plus sp) (.seq (.group 2 (plus dig)) (.seq (star sp)
  (.seq (LF 3) (.seq (LF 4) (.seq (star sp) (.seq (.group 5 (.set tf)) (.seq (star sp) (.set (ch 124)))))))))))))
abbrev snames : List (Str × Nat) := [(py"spec", 1), (py"index", 2), (py"spin", 3), (py"magmom", 4), (py"fix", 5)]
theorem SPIN_eq : INITIAL_SPIN_RE = ⟨SPIN, snames, 5⟩ := by decide +kernel

theorem spin_match {l : Str} {r : SpinRow} {a b : Numeral} (hl : SpinRow.Line l r) (hok : r.toIonRow.Ok 2) (hn : r.nums = [a, b]) :
    ∃ m, INITIAL_SPIN_RE.match_ l = some m ∧ m.caps = [(5, if r.fixed then py"T" else py"F"), (4, b.text), (3, a.text), (2, r.idx), (1, r.name.text)] ∧
      m.names = snames := by
  obtain ⟨g, l', more, rfl, hg, hi, hl⟩ := hl
  rw [hn] at hl
  rw [SPIN_eq]
  refine Gets.match_ (C := (· = _)) ?_
  refine Tddft.gapAt hg (by intro c hc; cases hc; rfl) fun pre _ => ?_
  refine Gets.char (c := 124) (by decide) ?_
  refine Gets.atomLineAt hl hok.1 hi hok.2.1 hok.2.2.1 fun pre s hs => ?_
  refine Gets.gapNum (n := a) hs (hok.2.2.2.2 a (by simp [hn])).1 fun _ _ hs => ?_
  refine Gets.num (n := b) hs (hok.2.2.2.2 b (by simp [hn])).1 fun _ _ hs => ?_
  refine Gets.gap hs fun pre s _ hs => ?_
  cases r.fixed with
  | true => exact Gets.one (c := 84) (by decide) (Gets.gap hs fun pre s _ hs => Gets.last (Gets.char (c := 124) (by decide) (Gets.eps rfl)))
  | false => exact Gets.one (c := 70) (by decide) (Gets.gap hs fun pre s _ hs => Gets.last (Gets.char (c := 124) (by decide) (Gets.eps rfl)))

theorem spin_miss' {p : Pat} (hp : p.re = SPIN) {l : Str} (h : NoDigit l) : p.match_ l = Option.none := by
  cases hm : p.match_ l with
  | none => rfl
  | some m =>
    obtain ⟨b, e, hl⟩ := match_found hm
    rw [hp] at hl
    obtain ⟨u, v, e1, -, u', v', rfl, -, u1, v1, rfl, -, u2, v2, rfl, -, u3, v3, rfl, -, h4⟩ := hl
    obtain ⟨d, v, rfl, hd⟩ := Tddft.lang_digits h4
    exact absurd hd (h d (by rw [e, e1]; simp))

theorem spin_line {l : Str} {r : SpinRow} {a b : Numeral} {rd : Numeral → F64} (hl : SpinRow.Line l r) (hok : r.toIonRow.Ok 2) (hn : r.nums = [a, b])
    (hr : ∀ n ∈ [a, b], parse_float_or_rational n.text = .ok (rd n)) :
    onMatch INITIAL_SPIN_RE (fun m => do
      let (ind, val) ← atregKey (groupVals m)
      let val ← fix_data_types val (types [py"spin", py"magmom"] .float)
      return (ind, PyVal.dict (val.set (.str (py"fix")) (.bool (decide (m.named (py"fix") = some (py"T"))))))) l =
    .ok (some (r.key, PyVal.dict (r.info rd))) := by
  obtain ⟨m, h1, h2, h3⟩ := spin_match hl hok hn
  have e1 : groupVals m = [(.str (py"spec"), .str r.name.text), (.str (py"index"), .str r.idx), (.str (py"spin"), .str a.text),
      (.str (py"magmom"), .str b.text), (.str (py"fix"), .str (if r.fixed then py"T" else py"F"))] := by
    rw [Popn.groups_eq h2 h3]; rfl
  have e2 : m.named (py"fix") = some (if r.fixed then py"T" else py"F") := by rw [Castep.named_eq h2 h3]; rfl
  have e3 : fix_data_types [(.str (py"spin"), .str a.text), (.str (py"magmom"), .str b.text), (.str (py"fix"), .str (if r.fixed then py"T" else py"F"))]
      (types [py"spin", py"magmom"] .float) = .ok [(.str (py"spin"), .float (rd a)), (.str (py"magmom"), .float (rd b)),
        (.str (py"fix"), .str (if r.fixed then py"T" else py"F"))] := by
    rw [types, List.map_cons, List.map_cons, List.map_nil, fix_some _ _ _ _ _ _ rfl (cellFloat (hr a (by simp))),
      fix_some _ _ _ _ _ _ rfl (cellFloat (hr b (by simp)))]
    rfl
  unfold onMatch
  rw [h1]
  simp only [e1, e2]
  rw [Popn.key_of rfl rfl rfl hok.2.1 hok.2.2.1]
  show (do let x ← (do let val ← fix_data_types [_, _, _] _; pure (_, PyVal.dict (Dict.set val _ _)) : PyM _); pure (some x) : PyM _) = _
  rw [e3, SpinRow.info, hn]
  cases r.fixed <;> rfl

/-! ### Born charges -/

abbrev PN (k : Nat) : Re := .rep true k (some k) (.seq (star sp) F)
abbrev ID : Re := .seq (star sp) (.seq (.set (ch 73)) (.seq (.set (ch 68)) (.seq (.set (ch 61)) (.group 4 (plus ⟨false, [.notSpace], false⟩)))))
abbrev BORN : Re := .seq (plus sp) (.seq (.group 1 A) (.seq (plus sp) (.seq (.group 2 (plus dig)) (.seq (.group 3 (PN 3)) (optR ID)))))
abbrev bnames : List (Str × Nat) := [(py"spec", 1), (py"index", 2), (py"charges", 3), (py"label", 4)]
theorem BORN_eq : Res.BORN_RE = ⟨BORN, bnames, 4⟩ := by decide +kernel

theorem run_PN1 (g : Str) (n : Numeral) (hg : Blank g) (hn : n.Valid) (hp : HasPoint n) (he : n.exp = none) (pre rest : Str) (caps) (k : St → Option St) (x : St)
    (hr : ∀ c, rest.head? = some c → isSpace c = true) (hk : k ⟨(g ++ n.text).reverse ++ pre, rest, caps⟩ = some x) :
    run (.seq (star sp) F) ⟨pre, g ++ (n.text ++ rest), caps⟩ k = some x := by
  rw [run_seq]
  refine run_star_all sp g _ _ _ _ _ _ (fun c hc => by rw [has_sp]; exact hg c hc)
    (stops_word (text_ne_nil n hn) (fun c hc => text_nospace n hn c hc)) (by simp) ?_
  apply run_point hn hp _ _ _ _ _ hr
  rw [mantissa_none he, he]
  simpa [Numeral.expText] using hk

theorem run_PN : ∀ (ns : List Numeral) (ws : List Str) (s : Str),
    After s (ns.map Numeral.text ++ ws) → (∀ n ∈ ns, n.Valid ∧ HasPoint n ∧ n.exp = none) →
    ∃ t s', s = t ++ s' ∧ Fields t (ns.map Numeral.text) ∧ After s' ws ∧
      ∀ (pre : Str) (caps : List (Nat × Str)) (k : St → Option St) (x : St), k ⟨t.reverse ++ pre, s', caps⟩ = some x →
        run (PN ns.length) ⟨pre, s, caps⟩ k = some x
  | [], ws, s, hs, _ => by
    refine ⟨[], s, rfl, fields_blank (by intro c hc; cases hc), hs, fun pre caps k x hk => ?_⟩
    rw [List.length_nil, run_rep_greedy, if_pos rfl, if_pos rfl, Option.none_or]
    exact hk
  | n :: ns, ws, s, hs, hv => by
    obtain ⟨g, s', rfl, h1, hg, h2, h3, h4⟩ := hs.next
    obtain ⟨t, s2, rfl, ht, h5, hk⟩ := run_PN ns ws s' h4 (fun y hy => hv y (by simp [hy]))
    refine ⟨g ++ (n.text ++ t), s2, by simp, ?_, h5, fun pre caps k x hx => ?_⟩
    · cases t with
      | nil =>
        have e : ns.map Numeral.text = [] := by
          rw [← fields_split ht]; rfl
        rw [List.map_cons, e]
        exact fields_prepend h1 (by rw [List.append_nil]; exact fields_word h2 h3)
      | cons c t =>
        have hc : isSpace c = true := h4.1 c rfl
        rw [List.map_cons]
        have e : g ++ (n.text ++ c :: t) = g ++ n.text ++ c :: t := by simp
        rw [e]
        exact .cons (fun d hd => by simp [h1 d hd]) h2 (fun d hd => by simp [h3 d hd]) (fun d hd => by cases hd; simp [hc]) ht
    · rw [List.length_cons, run_rep_greedy, if_neg (by simp), if_neg (by simp), Option.or_none]
      have := hv n (by simp)
      apply run_PN1 g n h1 this.1 this.2.1 this.2.2 _ _ _ _ _ h4.1
      have hlt : (t ++ s2).length < (g ++ (n.text ++ (t ++ s2))).length := by
        simp only [List.length_append]
        have := List.length_pos_iff.2 hg
        omega
      simp only [Option.map_some, Nat.add_sub_cancel, if_pos hlt]
      apply hk
      simpa using hx

theorem points {r : Re} {i k : Nat} {ns : List Numeral} {s : Str} {ws : List Str} {pre caps C} (hk : ns.length = k)
    (hs : After s (ns.map Numeral.text ++ ws)) (hv : ∀ n ∈ ns, n.Valid ∧ HasPoint n ∧ n.exp = none)
    (h : ∀ pre' s' t, Fields t (ns.map Numeral.text) → After s' ws → Gets r pre' s' ((i, t) :: caps) C) :
    Gets (.seq (.group i (PN k)) r) pre s caps C := by
  subst hk
  obtain ⟨t, s', rfl, ht, ha, hr⟩ := run_PN ns ws s hs hv
  obtain ⟨y, h5, h6⟩ := h (t.reverse ++ pre) s' t ht ha
  refine ⟨y, ?_, h6⟩
  rw [run_seq, run_group]
  apply hr
  rw [upTo_append]
  exact h5

/-- The label. -/
theorem optID {o : Option Str} {s pre : Str} {caps} {C : List (Nat × Str) → Prop} (hs : After s (o.toList.map (py"ID=" ++ ·)))
    (ho : ∀ w ∈ o, w ≠ [] ∧ ∀ c ∈ w, isSpace c = false) (h : C ((o.toList.map fun w => (4, w)) ++ caps)) :
    Gets (optR ID) pre s caps C := by
  cases o with
  | none =>
    refine ⟨⟨pre, s, caps⟩, ?_, h⟩
    rw [Castep.run_opt_fail]
    intro w t hst hw
    have hb : Blank s := blank_of_fields hs.2
    obtain ⟨u, v, rfl, -, u2, v2, rfl, h2, -⟩ := hw
    obtain ⟨c, hc, rfl⟩ := h2
    have := hst.post
    simp only [List.append_assoc] at this
    have := hb c (by rw [this]; simp)
    rw [has_ch] at hc
    simp at hc
    subst hc
    simp [isSpace] at this
  | some w =>
    obtain ⟨hw, hns⟩ := ho w rfl
    have key : Gets ID pre s caps (· = (4, w) :: caps) := by
      refine Gets.gap (w := py"ID=" ++ w) hs fun pre s _ hs => ?_
      refine Gets.char (c := 73) (by decide) (Gets.char (c := 68) (by decide) (Gets.char (c := 61) (by decide) ?_))
      refine ⟨⟨w.reverse ++ (61 :: 68 :: 73 :: pre), s, (4, w) :: caps⟩, ?_, rfl⟩
      rw [run_group]
      refine run_plus_all _ 1 w _ _ _ _ _ _ (List.length_pos_iff.2 hw) (fun c hc => ?_) (fun c hc => ?_) (by simp) ?_
      · simp [CSet.has, CItem.has, hns c hc]
      · simp [CSet.has, CItem.has, hs.1 c hc]
      · have := upTo_append (61 :: 68 :: 73 :: pre) w s caps caps
        show some (St.mk _ _ ((4, (⟨61 :: 68 :: 73 :: pre, w ++ s, caps⟩ : St).upTo _) :: _)) = some _
        rw [this]
    obtain ⟨t, h5, h6⟩ := key
    refine Gets.optTake h5 ?_ (by rw [h6]; exact h)
    obtain ⟨t', w', h7, h8, h9⟩ := run_some h5
    cases h9
    have := h7.post
    have hne : w' ≠ [] := by
      obtain ⟨u, v, rfl, -, u2, v2, rfl, ⟨c, -, rfl⟩, -⟩ := h8
      simp
    have := congrArg List.length this
    have := List.length_pos_iff.2 hne
    simp at *
    omega

theorem born_match {r : BornRow} (hok : r.Ok) {l : Str} (hi : Indented l)
    (hl : IonLine l r.name (r.idx :: (r.nums.map Numeral.text ++ r.label.toList.map (py"ID=" ++ ·)))) :
    ∃ m t, Fields t (r.nums.map Numeral.text) ∧ Res.BORN_RE.match_ l = some m ∧
      m.caps = (r.label.toList.map fun w => (4, w)) ++ [(3, t), (2, r.idx), (1, r.name.text)] ∧ m.names = bnames := by
  have : ∃ m, Res.BORN_RE.match_ l = some m ∧ (fun c => ∃ t, Fields t (r.nums.map Numeral.text) ∧
      c = (r.label.toList.map fun w => (4, w)) ++ [(3, t), (2, r.idx), (1, r.name.text)]) m.caps ∧ m.names = bnames := by
    rw [BORN_eq]
    refine Gets.match_ (p := ⟨BORN, bnames, 4⟩) (C := fun c => ∃ t, Fields t (r.nums.map Numeral.text) ∧
      c = (r.label.toList.map fun w => (4, w)) ++ [(3, t), (2, r.idx), (1, r.name.text)]) ?_
    refine Gets.atomLine1 hl hok.1.1 hi hok.1.2.1 hok.1.2.2.1 fun pre s hs => ?_
    refine points hok.1.2.2.2.1 hs (fun n hn => ⟨(hok.1.2.2.2.2 n hn).1, hok.2.1 n hn⟩) fun pre s t ht hs => ?_
    exact optID hs hok.2.2.2.2 ⟨t, ht, rfl⟩
  obtain ⟨m, h1, ⟨t, h2, h3⟩, h4⟩ := this
  exact ⟨m, t, h2, h1, h3, h4⟩

theorem born_ion {r : BornRow} (hok : r.Ok) {rd : Numeral → F64} (hr : ∀ n ∈ r.nums ++ (r.row2 ++ r.row3), parse_float_or_rational n.text = .ok (rd n))
    {m : Match} {t l2 l3 : Str} (ht : Fields t (r.nums.map Numeral.text))
    (hc : m.caps = (r.label.toList.map fun w => (4, w)) ++ [(3, t), (2, r.idx), (1, r.name.text)]) (hn : m.names = bnames)
    (h2 : Fields l2 (r.row2.map Numeral.text)) (h3 : Fields l3 (r.row3.map Numeral.text)) (rest : List Str) :
    bornIon m (l2 :: l3 :: rest) = .ok (r.key, r.tensor rd, rest) := by
  have e1 : m.named (py"label") = r.label := by rw [Castep.named_eq hc hn]; cases r.label <;> rfl
  have e2 : m.named (py"spec") = some r.name.text := by rw [Castep.named_eq hc hn]; cases r.label <;> rfl
  have e3 : grp m (py"charges") = .ok t := by rw [grp, Castep.named_eq hc hn]; cases r.label <;> rfl
  have e4 : groupVals m = [(.str (py"spec"), .str r.name.text), (.str (py"index"), .str r.idx), (.str (py"charges"), .str t),
      (.str (py"label"), optStr r.label)] := by
    rw [Popn.groups_eq hc hn]; cases r.label <;> rfl
  have f1 := wordsTo_float (rd := rd) ht fun n hn => hr n (by simp [hn])
  have f2 := wordsTo_float (rd := rd) h2 fun n hn => hr n (by simp [hn])
  have f3 := wordsTo_float (rd := rd) h3 fun n hn => hr n (by simp [hn])
  have f4 : atregKey (match r.label with
      | some l => Dict.set (Dict.erase [(Key.str (py"spec"), PyVal.str r.name.text), (.str (py"index"), .str r.idx), (.str (py"charges"), .str t),
          (.str (py"label"), optStr r.label)] (.str (py"label"))) (.str (py"spec")) (.str (r.name.text ++ py" [" ++ l ++ py"]"))
      | none => Dict.erase [(Key.str (py"spec"), PyVal.str r.name.text), (.str (py"index"), .str r.idx), (.str (py"charges"), .str t),
          (.str (py"label"), optStr r.label)] (.str (py"label"))) = .ok (r.key, [(.str (py"charges"), .str t)]) := by
    cases hl : r.label with
    | none =>
      rw [Popn.key_of rfl rfl rfl hok.1.2.1 hok.1.2.2.1, BornRow.key, hl]
      simp
      rfl
    | some w =>
      rw [Popn.key_of rfl rfl rfl hok.1.2.1 hok.1.2.2.1, BornRow.key, hl]
      simp
      rfl
  unfold bornIon
  simp only [e1, e2, e3, e4]
  cases hl : r.label with
  | none =>
    rw [hl] at f4
    show (do let a ← wordsTo .float t; let b ← wordsTo .float l2; let c ← wordsTo .float l3; let (ind, _) ← atregKey _
             pure (ind, PyVal.tuple [a, b, c], rest) : PyM _) = _
    rw [f1, f2, f3]
    show (do let (ind, _) ← atregKey _; pure (ind, PyVal.tuple [_, _, _], rest) : PyM _) = _
    rw [f4]
    rfl
  | some w =>
    rw [hl] at f4
    show (do let a ← wordsTo .float t; let b ← wordsTo .float l2; let c ← wordsTo .float l3; let (ind, _) ← atregKey _
             pure (ind, PyVal.tuple [a, b, c], rest) : PyM _) = _
    rw [f1, f2, f3]
    show (do let (ind, _) ← atregKey _; pure (ind, PyVal.tuple [_, _, _], rest) : PyM _) = _
    rw [f4]
    rfl

set_option maxRecDepth 20000 in
theorem born_nil (f : Nat) (d : Dict Key PyVal) : bornLoop (f + 1) [] d = .ok d := rfl

set_option maxRecDepth 20000 in
theorem born_cons (f : Nat) (l : Str) (rest : List Str) (d : Dict Key PyVal) : bornLoop (f + 1) (l :: rest) d =
    (match Res.BORN_RE.match_ l with
    | none => bornLoop f rest d
    | some m => do
      let (k, v, rest) ← bornIon m rest
      bornLoop f rest (d.set k v)) := rfl

attribute [local irreducible] bornLoop

theorem born_table {rd : Numeral → F64} {ls : List Str} {rows : List BornRow} (ht : BornRow.Table ls rows) (hok : ∀ r ∈ rows, r.Ok)
    (hr : ∀ n : Numeral, n.Valid → n.InRange → parse_float_or_rational n.text = .ok (rd n)) :
    ∀ fuel, ls.length < fuel → ∀ d, bornLoop fuel ls d = .ok ((rows.map fun r => (r.key, r.tensor rd)).foldl (fun d kv => d.set kv.1 kv.2) d) := by
  induction ht with
  | nil => intro fuel hf d; cases fuel with | zero => cases hf | succ f => exact born_nil f d
  | skip hl _ ih =>
    intro fuel hf d
    cases fuel with
    | zero => cases hf
    | succ f =>
      rw [born_cons, atom_miss (p := Res.BORN_RE) (by rw [BORN_eq]) hl]
      exact ih hok f (by simpa using hf) d
  | @row as ls r rs hl _ ih =>
    intro fuel hf d
    cases fuel with
    | zero => cases hf
    | succ f =>
      have ok := hok r (by simp)
      obtain ⟨l1, l2, l3, rfl, hi, hl1, h2, h3⟩ := hl
      obtain ⟨m, t, h4, h5, h6, h7⟩ := born_match ok hi hl1
      show bornLoop (f + 1) (l1 :: l2 :: l3 :: ls) d = _
      rw [born_cons, h5]
      show (do let (k, v, rest) ← bornIon m (l2 :: l3 :: ls); bornLoop f rest (d.set k v) : PyM _) = _
      rw [born_ion ok (rd := rd) (fun n hn => ?_) h4 h6 h7 h2 h3]
      · exact ih (fun r h => hok r (by simp [h])) f (by simp at hf; omega) _
      · have : n.Valid ∧ n.InRange := by
          simp only [List.mem_append] at hn
          rcases hn with hn | hn | hn
          · exact ok.1.2.2.2.2 n hn
          · exact ok.2.2.1.2 n hn
          · exact ok.2.2.2.1.2 n hn
        exact hr n this.1 this.2

/-! ### Tables with two keys -/

theorem get?_keys {f : Key → PyVal} (k : Key) : ∀ ks : List Key, Dict.get? (ks.map fun k => (k, f k)) k = if k ∈ ks then some (f k) else none
  | [] => rfl
  | a :: ks => by
    rw [List.map_cons, Dict.get?]
    by_cases h : a = k
    · subst h; rw [if_pos rfl, if_pos (by simp)]
    · rw [if_neg h, get?_keys k ks]
      by_cases hk : k ∈ ks
      · rw [if_pos hk, if_pos (by simp [hk])]
      · rw [if_neg hk, if_neg (by simp [hk, Ne.symm h])]

theorem set_keys {f f' : Key → PyVal} {k : Key} {v : PyVal} (hv : f' k = v) (hf : ∀ k', k' ≠ k → f' k' = f k') :
    ∀ {ks : List Key}, ks.Nodup → k ∈ ks → Dict.set (ks.map fun k => (k, f k)) k v = ks.map fun k => (k, f' k)
  | [], _, h => by cases h
  | a :: ks, hn, h => by
    rw [List.nodup_cons] at hn
    rw [List.map_cons, Dict.set, List.map_cons]
    by_cases ha : a = k
    · subst ha
      rw [if_pos rfl, hv]
      congr 1
      apply List.map_congr_left
      intro x hx
      rw [hf x (by rintro rfl; exact hn.1 hx)]
    · rw [if_neg ha, set_keys hv hf hn.2 (by simpa [Ne.symm ha] using h), hf a ha]

theorem setSub_nested (es : List (Key × Key × PyVal)) (e : Key × Key × PyVal) :
    Magres.setSub true (nested es) e.1 e.2.1 e.2.2 = .ok (nested (es ++ [e])) := by
  have hn := Elastic.nodup_dups _ (es.map fun e => e.1) (Nat.le_refl _)
  have hm : ∀ k, k ∈ (es.map fun e => e.1).eraseDups ↔ ∃ x ∈ es, x.1 = k := by
    intro k; rw [List.mem_eraseDups, List.mem_map]
  have e2 : (((es ++ [e]).filter (·.1 = e.1)).map Prod.snd) = ((es.filter (·.1 = e.1)).map Prod.snd) ++ [e.2] := by
    simp [List.filter_append]
  have e3 : ∀ k, k ≠ e.1 → (es ++ [e]).filter (·.1 = k) = es.filter (·.1 = k) := by
    intro k hk; simp [List.filter_append, Ne.symm hk]
  have e4 : ((es ++ [e]).map fun e => e.1).eraseDups = if e.1 ∈ (es.map fun e => e.1).eraseDups then (es.map fun e => e.1).eraseDups
      else (es.map fun e => e.1).eraseDups ++ [e.1] := by
    rw [List.map_append, List.eraseDups_append]
    by_cases h : e.1 ∈ es.map fun e => e.1
    · rw [if_pos (List.mem_eraseDups.2 h)]
      simp [List.removeAll, h]
    · rw [if_neg (fun h' => h (List.mem_eraseDups.1 h'))]
      have e8 : [e.1].removeAll (es.map fun e => e.1) = [e.1] := by simp [List.removeAll, h]
      have e9 : [e.1].eraseDups = [e.1] := by rw [List.eraseDups_cons]; rfl
      rw [List.map_singleton, e8, e9]
  rw [Magres.setSub]
  unfold nested
  rw [e4]
  generalize (es.map fun e => e.1).eraseDups = ks at *
  rw [get?_keys]
  by_cases h : e.1 ∈ ks
  · rw [if_pos h, if_pos h]
    dsimp only
    rw [set_keys (f' := fun k => .dict (Dict.ofList (((es ++ [e]).filter (·.1 = k)).map Prod.snd))) _ _ hn h]
    · rw [e2, Dict.ofList, List.foldl_append]; rfl
    · intro k hk
      rw [e3 k hk]
  · rw [if_neg h, if_neg h]
    dsimp only
    rw [if_pos rfl, List.map_append, Dict.set_eq_append]
    · congr 2
      · apply List.map_congr_left
        intro k hk
        rw [e3 k (by rintro rfl; exact h hk)]
      · rw [List.map_singleton, e2]
        have : es.filter (·.1 = e.1) = [] := by
          rw [List.filter_eq_nil_iff]
          intro x hx hxe
          exact h ((hm _).2 ⟨x, hx, by simpa using hxe⟩)
        rw [this]; rfl
    · simpa [Dict.keys] using h

/-- Rows, and lines that are passed over. -/
theorem nested_rows {α : Type} {f : Dict Key PyVal → Str → PyM (Dict Key PyVal)} {skip : Str → Prop} {Row : Str → α → Prop} {g : α → Key × Key × PyVal}
    (h1 : ∀ d l, skip l → f d l = .ok d) {ls : List Str} {rs : List α} (h : Interleaved skip Row ls rs)
    (h2 : ∀ d l, ∀ r ∈ rs, Row l r → f d l = Magres.setSub true d (g r).1 (g r).2.1 (g r).2.2) :
    ∀ es, foldLines f (nested es) ls = .ok (nested (es ++ rs.map g)) := by
  induction h with
  | nil => intro es; rw [foldLines]; simp
  | skip hs _ ih =>
    intro es
    rw [foldLines, h1 _ _ hs]
    exact ih h2 es
  | @row l ls r rs hr _ ih =>
    intro es
    rw [foldLines, h2 _ _ r (by simp) hr, setSub_nested]
    have := ih (fun d l r hr => h2 d l r (by simp [hr])) (es ++ [g r])
    rw [List.append_assoc] at this
    exact this

/-! ### Orbital populations -/

abbrev spdf : CSet := ⟨false, [.ch 83, .ch 80, .ch 68, .ch 70], false⟩
abbrev xyz : CSet := ⟨false, [.ch 120, .ch 121, .ch 122], false⟩
abbrev ORB : Re := .seq (star sp) (.seq (.group 1 A) (.seq (plus sp) (.seq (.group 2 (plus dig)) (.seq (star sp)
  (.seq (.group 3 (.seq (.set spdf) (optR (.set xyz)))) (.seq (star sp) (LF 4)))))))
abbrev onames : List (Str × Nat) := [(py"spec", 1), (py"index", 2), (py"orb", 3), (py"charge", 4)]
theorem ORB_eq : Res.ORBITAL_POPN_RE = ⟨ORB, onames, 4⟩ := by decide +kernel

theorem orb_group {r : Re} {w s pre : Str} {ws : List Str} {caps C} (hw : w ∈ orbitals) (hs : After s ws)
    (h : Gets r (w.reverse ++ pre) s ((3, w) :: caps) C) :
    Gets (.seq (.group 3 (.seq (.set spdf) (optR (.set xyz)))) r) pre (w ++ s) caps C := by
  obtain ⟨t, h5, h6⟩ := h
  refine ⟨t, ?_, h6⟩
  have hw' : (∃ c, w = [c] ∧ spdf.has c = true) ∨ ∃ c d, w = [c, d] ∧ spdf.has c = true ∧ xyz.has d = true := by
    have : ∀ w ∈ orbitals, (∃ c ∈ w, w = [c] ∧ spdf.has c = true) ∨ ∃ c ∈ w, ∃ d ∈ w, w = [c, d] ∧ spdf.has c = true ∧ xyz.has d = true := by decide +kernel
    rcases this w hw with ⟨c, -, h⟩ | ⟨c, -, d, -, h⟩
    · exact .inl ⟨c, h⟩
    · exact .inr ⟨c, d, h⟩
  have hst : Stops xyz s := by
    intro c hc
    have := hs.1 c hc
    simp [isSpace] at this
    simp [CSet.has, CItem.has]
    omega
  rw [run_seq, run_group]
  have hu := upTo_append pre w s caps caps
  rcases hw' with ⟨c, rfl, hc⟩ | ⟨c, d, rfl, hc, hd⟩
  · rw [run_seq, List.cons_append, run_set_cons, if_pos hc, List.nil_append, run_star_stop _ _ _ _ _ _ _ hst]
    simp only [List.cons_append, List.nil_append, List.reverse_cons, List.reverse_nil] at hu
    simp only [hu]
    exact h5
  · rw [run_seq, List.cons_append, run_set_cons, if_pos hc, List.cons_append, List.nil_append, run_opt_cons _ _ _ _ _ _ hd]
    simp only [List.cons_append, List.nil_append, List.reverse_cons, List.reverse_nil] at hu
    simp only [hu]
    have h5 : run r ⟨d :: c :: pre, s, (3, [c, d]) :: caps⟩ some = some t := h5
    rw [h5]
    rfl

theorem orb_match {l : Str} {r : OrbRow} {n : Numeral} (hl : OrbRow.Line l r) (hok : r.toIonRow.Ok 1) (hn : r.nums = [n]) (ho : r.orb ∈ orbitals) :
    ∃ m, Res.ORBITAL_POPN_RE.match_ l = some m ∧ m.caps = [(4, n.text), (3, r.orb), (2, r.idx), (1, r.name.text)] ∧ m.names = onames := by
  obtain ⟨more, hl⟩ := hl
  rw [hn] at hl
  rw [ORB_eq]
  refine Gets.match_ (C := (· = _)) ?_
  refine Gets.atomLine hl hok.1 hok.2.1 hok.2.2.1 fun pre s hs => ?_
  refine Gets.gap hs fun pre s _ hs => orb_group ho hs ?_
  have e : ∀ st (k : St → Option St), run (.seq (star sp) (LF 4)) st k = run (.seq (star sp) (.seq (LF 4) .eps)) st k := by
    intro st k
    simp only [run_seq, run_eps]
  refine Gets.congr e ?_
  exact Gets.gapNum (n := n) hs (hok.2.2.2.2 n (by simp [hn])).1 fun _ _ hs => Gets.eps rfl

theorem orb_line {l : Str} {r : OrbRow} {n : Numeral} {rd : Numeral → F64} (hl : OrbRow.Line l r) (hok : r.toIonRow.Ok 1) (hn : r.nums = [n])
    (ho : r.orb ∈ orbitals) (hr : parse_float_or_rational n.text = .ok (rd n)) (d : Dict Key PyVal) :
    orbitalLine d l = Magres.setSub true d (r.entry rd).1 (r.entry rd).2.1 (r.entry rd).2.2 := by
  obtain ⟨m, h1, h2, h3⟩ := orb_match hl hok hn ho
  have e1 : groupVals m = [(.str (py"spec"), .str r.name.text), (.str (py"index"), .str r.idx), (.str (py"orb"), .str r.orb),
      (.str (py"charge"), .str n.text)] := by
    rw [Popn.groups_eq h2 h3]; rfl
  have e2 : m.named (py"charge") = some n.text := by rw [Castep.named_eq h2 h3]; rfl
  have e3 : grpKey m (py"orb") = .str r.orb := by rw [grpKey, Castep.named_eq h2 h3]; rfl
  have e4 : to_type .float (optStr (some n.text)) = .ok (.float (rd n)) := cellFloat hr
  unfold orbitalLine
  rw [h1]
  simp only [e1, e2, e3]
  rw [Popn.key_of rfl rfl rfl hok.2.1 hok.2.2.1]
  show (do let v ← to_type .float (optStr (some n.text)); Magres.setSub true d _ _ v : PyM _) = _
  rw [e4, OrbRow.entry, hn]
  rfl

abbrev TOT : Re := litThen (py"Total:") (.seq (star sp) (LF 1))
theorem TOT_eq : ORBITAL_TOTAL_RE = ⟨.seq (star sp) TOT, [(py"charge", 1)], 1⟩ := by decide +kernel

/-- Lines that the loop passes over or that end the table. -/
theorem total_match {l : Str} {n : Numeral} (hl : OrbTotal l n) (hn : n.Valid) :
    ∃ m, ORBITAL_TOTAL_RE.match_ l = some m ∧ m.caps = [(1, n.text)] ∧ m.names = [(py"charge", 1)] := by
  obtain ⟨more, hl⟩ := hl
  rw [TOT_eq]
  refine Gets.match_ (C := (· = _)) ?_
  refine Gets.start hl clear_nil fun pre s _ hs => Gets.lit _ _ ?_
  have e : ∀ st (k : St → Option St), run (.seq (star sp) (LF 1)) st k = run (.seq (star sp) (.seq (LF 1) .eps)) st k := by
    intro st k
    simp only [run_seq, run_eps]
  refine Gets.congr e ?_
  exact Gets.gapNum (n := n) hs hn fun _ _ hs => Gets.eps rfl

theorem name_after {u2 u3 v : Str} {d : Nat} (h : Lang A u2) (h3 : Blank u3) (hd : 48 ≤ d ∧ d ≤ 57) :
    ∃ c a2 g' z t, u2 ++ (u3 ++ d :: v) = c :: (a2 ++ (g' ++ z :: t)) ∧ (65 ≤ c ∧ c ≤ 90) ∧ a2.length ≤ 2 ∧ (∀ c ∈ a2, 97 ≤ c ∧ c ≤ 122) ∧ Blank g' ∧
      (z = 58 ∨ z = 91 ∨ (48 ≤ z ∧ z ≤ 57)) := by
  obtain ⟨a, b, rfl, ha, a1, b1, rfl, ⟨c, hc, rfl⟩, a2, b2, rfl, h2, a3, b3, rfl, h3', a4, b4, rfl, h4, h5⟩ := h
  obtain rfl : a = [] := ha
  obtain rfl : a4 = [] := h4
  have h2 := (lang_rep_set _ _ _ _ _).1 h2
  have hlow : ∀ c ∈ a2, 97 ≤ c ∧ c ≤ 122 := fun c hc => (has_lowS c).1 (h2.1 c hc)
  have hlen : a2.length ≤ 2 := h2.2.2 2 rfl
  obtain ⟨ws3, rfl, -, -, hw3⟩ := h3'
  cases ws3 with
  | cons x ws3 =>
    obtain ⟨u, v', rfl, ⟨z, hz, rfl⟩, -⟩ := hw3 x (by simp)
    rw [has_ch] at hz
    exact ⟨c, a2, [], z, v' ++ (ws3.flatten ++ (b4 ++ (u3 ++ d :: v))), by simp, (has_upS c).1 hc, hlen, hlow, (by intro c hc; cases hc), .inl (by simpa using hz)⟩
  | nil =>
    obtain ⟨ws5, rfl, -, -, hw5⟩ := h5
    cases ws5 with
    | nil => exact ⟨c, a2, u3, d, v, by simp, (has_upS c).1 hc, hlen, hlow, h3, .inr (.inr hd)⟩
    | cons x ws5 =>
      obtain ⟨u, v', rfl, hu, p, q, rfl, ⟨z, hz, rfl⟩, -⟩ := hw5 x (by simp)
      rw [has_ch] at hz
      refine ⟨c, a2, u, z, q ++ (ws5.flatten ++ (u3 ++ d :: v)), by simp, (has_upS c).1 hc, hlen, hlow, ?_, .inr (.inl (by simpa using hz))⟩
      intro y hy
      have := ((lang_rep_set _ _ _ _ _).1 hu).1 y hy
      rwa [has_sp] at this

/-- A line that begins with something else than an atom. -/
theorem orb_none' {p : Pat} (hp : p.re = ORB) {g rest : Str} {c : Nat} (hg : Blank g) (hc : isSpace c = false)
    (h : ∀ a2 g' z t, rest = a2 ++ (g' ++ z :: t) → a2.length ≤ 2 → (∀ c ∈ a2, 97 ≤ c ∧ c ≤ 122) → Blank g' →
      ¬ (z = 58 ∨ z = 91 ∨ (48 ≤ z ∧ z ≤ 57))) : p.match_ (g ++ c :: rest) = Option.none := by
  cases hm : p.match_ (g ++ c :: rest) with
  | none => rfl
  | some m =>
    exfalso
    obtain ⟨b, e, hl⟩ := match_found hm
    rw [hp] at hl
    obtain ⟨u1, v1, e1, h1, u2, v2, rfl, h2, u3, v3, rfl, h3, h4⟩ := hl
    obtain ⟨d, v, rfl, hd⟩ := Tddft.lang_digits h4
    have h2 : Lang A u2 := h2
    have b1 : Blank u1 := fun y hy => by have := ((lang_rep_set _ _ _ _ _).1 h1).1 y hy; rwa [has_sp] at this
    have b3 : Blank u3 := fun y hy => by have := ((lang_rep_set _ _ _ _ _).1 h3).1 y hy; rwa [has_sp] at this
    obtain ⟨c', a2, g', z, t, e2, hc', q1, q2, q3, q4⟩ := name_after (v := v) h2 b3 hd
    rw [e1, e2] at e
    have hsp : isSpace c' = false := by
      simp [isSpace]; omega
    have d1 : (g ++ c :: rest).dropWhile isSpace = c :: rest := by
      rw [List.dropWhile_append_of_pos (fun c hc => hg c hc), List.dropWhile_cons_of_neg (by simp [hc])]
    have d2 : (u1 ++ c' :: (a2 ++ (g' ++ z :: t)) ++ b).dropWhile isSpace = c' :: (a2 ++ (g' ++ z :: (t ++ b))) := by
      rw [List.append_assoc, List.dropWhile_append_of_pos (fun c hc => b1 c hc), List.cons_append, List.dropWhile_cons_of_neg (by simp [hsp])]
      simp
    rw [e, d2] at d1
    injection d1 with _ d1
    exact h a2 g' z (t ++ b) d1.symm q1 q2 q3 q4

theorem ORB_re : Res.ORBITAL_POPN_RE.re = ORB := by rw [ORB_eq]

theorem blank_split {g' t s : Str} {z c : Nat} (hg : Blank g') (hc : isSpace c = false) (e : c :: s = g' ++ z :: t) : g' = [] ∧ z = c := by
  cases g' with
  | nil => simp at e; exact ⟨rfl, e.1.symm⟩
  | cons a g' =>
    simp at e
    have := hg a (by simp)
    rw [← e.1, hc] at this
    cases this

theorem orb_total {l : Str} {n : Numeral} (h : OrbTotal l n) : Res.ORBITAL_POPN_RE.match_ l = Option.none := by
  obtain ⟨more, h⟩ := h
  obtain ⟨g, s, rfl, hg, -, -, hs⟩ := fields_next h
  refine orb_none' ORB_re hg (by decide) ?_
  intro a2 g' z t e q1 q2 q3 q4
  match a2, q1, e with
  | [], _, e =>
    obtain ⟨-, rfl⟩ := blank_split q3 (by decide) e
    omega
  | [a], _, e =>
    simp only [List.cons_append, List.nil_append] at e
    injection e with _ e
    obtain ⟨-, rfl⟩ := blank_split q3 (by decide) e
    omega
  | [a, b], _, e =>
    simp only [List.cons_append, List.nil_append] at e
    injection e with _ e
    injection e with _ e
    obtain ⟨-, rfl⟩ := blank_split q3 (by decide) e
    omega

theorem orb_projected {l : Str} {ns : List Numeral} (h : OrbProjected l ns) : Res.ORBITAL_POPN_RE.match_ l = Option.none := by
  obtain ⟨-, -, ws, h⟩ := h
  obtain ⟨g, s, rfl, hg, -, -, hs⟩ := fields_next h
  obtain ⟨g2, s2, rfl, hg2, hne, -, -, -⟩ := hs.next
  refine orb_none' ORB_re hg (by decide) ?_
  intro a2 g' z t e q1 q2 q3 q4
  match a2, q1, e with
  | [], _, e =>
    obtain ⟨-, rfl⟩ := blank_split q3 (by decide) e
    omega
  | [a], _, e =>
    simp only [List.cons_append, List.nil_append] at e
    injection e with _ e
    obtain ⟨-, rfl⟩ := blank_split q3 (by decide) e
    omega
  | [a, b], _, e =>
    simp only [List.cons_append, List.nil_append] at e
    injection e with _ e
    injection e with _ e
    have d1 : (g2 ++ 116 :: (py"otal" ++ s2)).dropWhile isSpace = 116 :: (py"otal" ++ s2) := by
      rw [List.dropWhile_append_of_pos (fun c hc => hg2 c hc), List.dropWhile_cons_of_neg (by decide)]
    have hz : isSpace z = false := by
      simp [isSpace]; omega
    have d2 : (g' ++ z :: t).dropWhile isSpace = z :: t := by
      rw [List.dropWhile_append_of_pos (fun c hc => q3 c hc), List.dropWhile_cons_of_neg (by simp [hz])]
    have e' : g2 ++ 116 :: (py"otal" ++ s2) = g' ++ z :: t := e
    rw [e', d2] at d1
    injection d1 with d1
    omega

theorem tot_none {l : Str} (h : (∃ ws, Fields l (py"The" :: ws)) ∨ NoDigit l) : ORBITAL_TOTAL_RE.match_ l = Option.none := by
  have hp : ORBITAL_TOTAL_RE.re = .seq (star sp) TOT := by rw [TOT_eq]
  generalize ORBITAL_TOTAL_RE = p at *
  cases hm : p.match_ l with
  | none => rfl
  | some m =>
    exfalso
    obtain ⟨b, e, hl⟩ := match_found hm
    rw [hp] at hl
    obtain ⟨u1, v1, e1, h1, u2, v2, rfl, ⟨c2, k2, rfl⟩, u3, v3, rfl, ⟨c3, k3, rfl⟩, hl⟩ := hl
    have b1 : Blank u1 := fun y hy => by have := ((lang_rep_set _ _ _ _ _).1 h1).1 y hy; rwa [has_sp] at this
    rw [has_ch] at k2 k3
    simp at k2 k3
    rcases h with ⟨ws, h⟩ | h
    · obtain ⟨g, s, rfl, hg, -, -, hs⟩ := fields_next h
      have d1 : (g ++ 84 :: (py"he" ++ s)).dropWhile isSpace = 84 :: (py"he" ++ s) := by
        rw [List.dropWhile_append_of_pos (fun c hc => hg c hc), List.dropWhile_cons_of_neg (by decide)]
      have e' : g ++ 84 :: (py"he" ++ s) = u1 ++ 84 :: 111 :: (v3 ++ b) := by
        show g ++ (py"The" ++ s) = _
        rw [e, e1, k2, k3]
        simp
      have d2 : (u1 ++ 84 :: 111 :: (v3 ++ b)).dropWhile isSpace = 84 :: 111 :: (v3 ++ b) := by
        rw [List.dropWhile_append_of_pos (fun c hc => b1 c hc), List.dropWhile_cons_of_neg (by decide)]
      rw [e', d2] at d1
      simp at d1
    · obtain ⟨_, _, rfl, -, _, _, rfl, -, _, _, rfl, -, _, _, rfl, -, _, _, rfl, -, _, w, rfl, -, hw⟩ := hl
      obtain ⟨c, hc, hd⟩ := Castep.digit_of_N hw
      exact h c (by rw [e, e1]; simp [hc]) hd

/-! ### Displacements -/

abbrev DISP : Re := .seq (LF 1) (.seq (star sp) (.seq (.group 2 A) (.seq (plus sp) (.seq (.group 3 (plus dig)) (.seq (star sp) (.group 4 (LN 6)))))))
abbrev qnames : List (Str × Nat) := [(py"temperature", 1), (py"spec", 2), (py"index", 3), (py"displacement", 4)]
theorem DISP_eq : Res.ATOMIC_DISP_RE = ⟨DISP, qnames, 4⟩ := by decide +kernel

/-- A line that does not begin with a number. -/
theorem lf_miss {p : Pat} {y : Re} (hp : p.re = .seq (LF 1) y) {l : Str} (h : NoNumberFirst l) : p.match_ l = Option.none := by
  cases hm : p.match_ l with
  | none => rfl
  | some m =>
    exfalso
    obtain ⟨b, e, hl⟩ := match_found hm
    rw [hp] at hl
    obtain ⟨u, v, e1, ⟨u1, u2, rfl, h1, h2⟩, -⟩ := hl
    obtain ⟨n, hn, rfl⟩ := lang_N (show Lang N u2 from h2)
    obtain ⟨c, hc, hd⟩ := Castep.digit_of_N (show Lang N n.text from h2)
    have hns := text_nospace n hn
    have b1 : Blank u1 := fun y hy => by have := ((lang_rep_set _ _ _ _ _).1 h1).1 y hy; rwa [has_sp] at this
    rw [e1] at e
    rcases h with h | ⟨w, ws, hf, hw⟩
    · have := h c (by rw [e]; simp [hc])
      rw [hns c hc] at this
      cases this
    · obtain ⟨g, s, rfl, hg, hne, hws, hs⟩ := fields_next hf
      have d1 : (g ++ (w ++ s)).dropWhile isSpace = w ++ s := by
        rw [List.dropWhile_append_of_pos (fun c hc => hg c hc)]
        cases w with
        | nil => exact absurd rfl hne
        | cons a w => rw [List.cons_append, List.dropWhile_cons_of_neg (by simp [hws a (by simp)])]
      have d2 : (u1 ++ n.text ++ v ++ b).dropWhile isSpace = n.text ++ (v ++ b) := by
        rw [List.append_assoc, List.append_assoc, List.dropWhile_append_of_pos (fun c hc => b1 c hc)]
        have hne' := text_ne_nil n hn
        cases ht : n.text with
        | nil => exact absurd ht hne'
        | cons a w => rw [List.cons_append, List.dropWhile_cons_of_neg (by simp [hns a (by simp [ht])])]
      rw [e, d2] at d1
      rcases List.append_eq_append_iff.1 d1 with ⟨a, e2, e3⟩ | ⟨a, e2, e3⟩
      · exact hw c (by rw [e2]; simp [hc]) hd
      · cases a with
        | nil => exact hw c (by rw [List.append_nil] at e2; rw [← e2]; exact hc) hd
        | cons x a =>
          have h1 := hs.1 x (by rw [e3]; rfl)
          rw [hns x (by rw [e2]; simp)] at h1
          cases h1

theorem disp_match {l : Str} {r : DispRow} (hl : DispRow.Line l r) (hok : r.toIonRow.Ok 6) (ht : r.temp.Valid) :
    ∃ m, Res.ATOMIC_DISP_RE.match_ l = some m ∧
      (∃ t, m.caps = [(4, t), (3, r.idx), (2, r.name.text), (1, r.temp.text)] ∧ Fields t (r.nums.map Numeral.text)) ∧ m.names = qnames := by
  obtain ⟨g, s, more, rfl, hg, hgne, hi, hs⟩ := hl
  rw [DISP_eq]
  refine Gets.match_ (p := ⟨DISP, qnames, 4⟩) (C := fun c => ∃ t, c = [(4, t), (3, r.idx), (2, r.name.text), (1, r.temp.text)] ∧ Fields t (r.nums.map Numeral.text)) ?_
  have key : Gets (.seq (star sp) (.seq (.group 2 A) (.seq (plus sp) (.seq (.group 3 (plus dig)) (.seq (star sp) (.group 4 (LN 6)))))))
      ((g ++ r.temp.text).reverse ++ []) s [(1, r.temp.text)]
      (fun c => ∃ t, c = [(4, t), (3, r.idx), (2, r.name.text), (1, r.temp.text)] ∧ Fields t (r.nums.map Numeral.text)) := by
    refine Gets.atomLineAt hs hok.1 hi hok.2.1 hok.2.2.1 fun pre s hs => ?_
    have e : ∀ st (k : St → Option St), run (.seq (star sp) (.group 4 (LN 6))) st k = run (.seq (star sp) (.seq (.group 4 (LN 6)) .eps)) st k := by
      intro st k
      simp only [run_seq, run_eps]
    refine Gets.congr e ?_
    obtain ⟨w, ws, hw⟩ : ∃ w ws, r.nums.map Numeral.text ++ more = w :: ws := by
      cases hq : r.nums with
      | nil => have := hok.2.2.2.1; rw [hq] at this; cases this
      | cons a q => exact ⟨_, _, rfl⟩
    rw [hw] at hs
    refine Gets.gapBack (fun pre s caps k hs => run_LN_stop _ _ _ _ _ _ hs) hs fun p2 s2 a2 => ?_
    rw [← hw] at a2
    exact Gets.nums hok.2.2.2.1 a2 (fun n hn => (hok.2.2.2.2 n hn).1) fun p3 s3 t f a3 => Gets.eps ⟨t, rfl, f⟩
  obtain ⟨t, h5, h6⟩ := key
  refine ⟨t, ?_, h6⟩
  rw [run_seq]
  refine run_LF 1 g r.temp hg hgne ht _ _ _ _ _ ?_ h5
  obtain ⟨c, s', rfl, hc⟩ := hi
  exact AtomVec.ends_gap (g := [c]) ⟨by intro d hd; simp at hd; subst hd; exact hc, by simp⟩

theorem disp_line {l : Str} {r : DispRow} {rd : Numeral → F64} (hl : DispRow.Line l r) (hok : r.toIonRow.Ok 6) (ht : r.temp.Valid)
    (hr : ∀ n ∈ r.nums, parse_float_or_rational n.text = .ok (rd n)) (d : Dict Key PyVal) :
    dispLine d l = Magres.setSub true d (r.entry rd).1 (r.entry rd).2.1 (r.entry rd).2.2 := by
  obtain ⟨m, h1, ⟨t, h2, hf⟩, h3⟩ := disp_match hl hok ht
  have e1 : groupVals m = [(.str (py"temperature"), .str r.temp.text), (.str (py"spec"), .str r.name.text), (.str (py"index"), .str r.idx),
      (.str (py"displacement"), .str t)] := by
    rw [Popn.groups_eq h2 h3]; rfl
  have e2 : grp m (py"displacement") = .ok t := by rw [grp, Castep.named_eq h2 h3]; rfl
  have e3 : grpKey m (py"temperature") = .str r.temp.text := by rw [grpKey, Castep.named_eq h2 h3]; rfl
  unfold dispLine
  rw [h1]
  simp only [e1, e2, e3]
  rw [Popn.key_of rfl rfl rfl hok.2.1 hok.2.2.1]
  show (do let v ← wordsTo .float t; Magres.setSub true d _ _ v : PyM _) = _
  rw [wordsTo_float hf hr]
  rfl

theorem disp_skip {l : Str} (h : NoNumberFirst l) (d : Dict Key PyVal) : dispLine d l = .ok d := by
  unfold dispLine
  rw [lf_miss (p := Res.ATOMIC_DISP_RE) (by rw [DISP_eq]) h]

/-! ### The table of orbitals -/

theorem fold_append {f : Dict Key PyVal → Str → PyM (Dict Key PyVal)} (a b : List Str) (d : Dict Key PyVal) :
    foldLines f d (a ++ b) = (do let d ← foldLines f d a; foldLines f d b) := by
  induction a generalizing d with
  | nil => rfl
  | cons l a ih =>
    rw [List.cons_append, foldLines, foldLines]
    cases f d l with
    | error e => rfl
    | ok d => exact ih d

theorem fold_skip {f : Dict Key PyVal → Str → PyM (Dict Key PyVal)} {a : List Str} {d : Dict Key PyVal} (h : ∀ l ∈ a, f d l = .ok d) :
    foldLines f d a = .ok d := by
  induction a with
  | nil => rfl
  | cons l a ih =>
    rw [foldLines, h l (by simp)]
    exact ih fun l hl => h l (by simp [hl])

theorem fold_app {f : Dict Key PyVal → Str → PyM (Dict Key PyVal)} {a b : List Str} {d d' : Dict Key PyVal} (h : foldLines f d a = .ok d') :
    foldLines f d (a ++ b) = foldLines f d' b := by
  rw [fold_append, h]; rfl

theorem fold_step {f : Dict Key PyVal → Str → PyM (Dict Key PyVal)} {l : Str} {b : List Str} {d d' : Dict Key PyVal} (h : f d l = .ok d') :
    foldLines f d (l :: b) = foldLines f d' b := by
  rw [foldLines, h]; rfl

theorem contains_false {sub s : Str} (h : ¬ Occurs sub s) : Str.contains sub s = false := by
  cases hc : Str.contains sub s with
  | false => rfl
  | true => exact absurd ((Str.contains_iff _ _).1 hc) h

theorem orb_skip {l : Str} (h : OrbOther l) (d : Dict Key PyVal) : orbitalLine d l = .ok d := by
  unfold orbitalLine
  rw [atom_miss ORB_re h.1]
  dsimp only
  rw [tot_none (.inr h.1)]
  dsimp only
  rw [contains_false h.2]
  rfl

theorem orb_totalLine {l : Str} {n : Numeral} {fl : Numeral → F64} (h : OrbTotal l n) (hn : n.Valid) (hr : pyFloat n.text = .ok (fl n)) (d : Dict Key PyVal) :
    orbitalLine d l = .ok (d.set (.str (py"total")) (.float (fl n))) := by
  obtain ⟨m, h1, h2, h3⟩ := total_match h hn
  have e3 : m.named (py"charge") = some n.text := by rw [Castep.named_eq h2 h3]; rfl
  have e5 : grpFloat m (py"charge") = .ok (.float (fl n)) := by
    rw [grpFloat, grp, e3]
    show (do let x ← pyFloat n.text; pure (PyVal.float x) : PyM PyVal) = _
    rw [hr]
    rfl
  unfold orbitalLine
  rw [orb_total h]
  dsimp only
  rw [h1]
  dsimp only
  rw [e5]
  rfl

theorem orb_projLine {l : Str} {ns : List Numeral} {rd : Numeral → F64} (h : OrbProjected l ns) (hv : ∀ n ∈ ns, n.Valid)
    (hr : ∀ n ∈ ns, parse_float_or_rational n.text = .ok (rd n)) (d : Dict Key PyVal) :
    orbitalLine d l = .ok (d.set (.str (py"total_projected")) (.tuple (ns.map fun n => .float (rd n)))) := by
  unfold orbitalLine
  rw [orb_projected h]
  dsimp only
  rw [tot_none (.inl (by obtain ⟨-, -, ws, h⟩ := h; exact ⟨_, h⟩))]
  dsimp only
  rw [(Str.contains_iff _ _).2 h.2.1, if_pos rfl, numbersOf_of h.1 hv hr]
  rfl

theorem orb_table {rd fl : Numeral → F64} {A B C : List Str} {tl pl : Str} {rows : List OrbRow} {n : Numeral} {ns : List Numeral}
    (hA : Interleaved OrbOther OrbRow.Line A rows) (hrows : ∀ r ∈ rows, r.toIonRow.Ok 1 ∧ r.orb ∈ orbitals) (hB : ∀ l ∈ B, OrbOther l) (hC : ∀ l ∈ C, OrbOther l)
    (ht : OrbTotal tl n) (hn : n.Valid ∧ n.InRange) (hp : OrbProjected pl ns) (hns : ∀ m ∈ ns, m.Valid ∧ m.InRange)
    (hr : ∀ n : Numeral, n.Valid → n.InRange → parse_float_or_rational n.text = .ok (rd n))
    (hf : ∀ n : Numeral, n.Valid → n.InRange → pyFloat n.text = .ok (fl n)) :
    process_orbital_populations (A ++ tl :: (B ++ pl :: C)) = .ok (.dict (nested (rows.map (·.entry rd)) ++
      [(.str (py"total"), .float (fl n)), (.str (py"total_projected"), .tuple (ns.map fun n => .float (rd n)))])) := by
  have h1 : foldLines orbitalLine [] A = .ok (nested (rows.map (·.entry rd))) := by
    have := nested_rows (f := orbitalLine) (g := fun r : OrbRow => r.entry rd) (fun d l h => orb_skip h d) hA (fun d l r hr' hl => by
      obtain ⟨k, hk⟩ := hrows r hr'
      obtain ⟨q, hq⟩ : ∃ q, r.nums = [q] := List.length_eq_one_iff.1 k.2.2.2.1
      have := k.2.2.2.2 q (by simp [hq])
      exact orb_line hl k hq hk (hr q this.1 this.2) d) []
    exact this
  have hk : ∀ (k : Str), Key.str k ∉ Dict.keys (nested (rows.map (·.entry rd))) := by
    intro k h
    simp only [Dict.keys, nested, List.map_map, List.mem_map, List.mem_eraseDups] at h
    obtain ⟨a, ⟨r, -, rfl⟩, h⟩ := h
    cases h
  have : foldLines orbitalLine [] (A ++ tl :: (B ++ pl :: C)) = .ok (nested (rows.map (·.entry rd)) ++
      [(.str (py"total"), .float (fl n)), (.str (py"total_projected"), .tuple (ns.map fun n => .float (rd n)))]) := by
    rw [fold_app h1, fold_step (orb_totalLine ht hn.1 (hf n hn.1 hn.2) _), fold_app (fold_skip fun l hl => orb_skip (hB l hl) _),
      fold_step (orb_projLine hp (fun m hm => (hns m hm).1) (fun m hm => hr m (hns m hm).1 (hns m hm).2) _),
      fold_skip (fun l hl => orb_skip (hC l hl) _), Dict.set_eq_append _ _ _ (hk _), Dict.set_eq_append]
    · rw [List.append_assoc]; rfl
    · simp only [Dict.keys, List.map_append, List.mem_append, not_or]
      exact ⟨hk _, by simp⟩
  rw [process_orbital_populations, this]
  rfl

/-! ### Thermodynamics -/

/-- The columns of text. -/
abbrev colsOf' (rows : List (List Numeral)) : Dict Key PyVal := colsOf thermoLabels rows

theorem THERMO_eq : Res.THERMODYNAMICS_DATA_RE = ⟨lfs 1 4 (LF 5), thermoLabels.zipIdx 1, 5⟩ := by decide +kernel

theorem thermo_match {l : Str} {ns : List Numeral} (hl : NumLine l ns) (hok : ns.length = 5) (hv : ∀ n ∈ ns, n.Valid) :
    ∃ m, Res.THERMODYNAMICS_DATA_RE.match_ l = some m ∧ groupVals m = (thermoLabels.zip ns).map fun q => (Key.str q.1, PyVal.str q.2.text) := by
  obtain ⟨more, ha⟩ := numLine_after hl
  have e : ∀ st (k : St → Option St), run (lfs 1 4 (LF 5)) st k = run (lfs 1 5 .eps) st k := by
    intro st k
    simp only [lfs, run_seq, run_eps]
  have hp : Res.THERMODYNAMICS_DATA_RE.re = lfs 1 4 (LF 5) := by rw [THERMO_eq]
  have hnm : Res.THERMODYNAMICS_DATA_RE.names = thermoLabels.zipIdx 1 := by rw [THERMO_eq]
  generalize Res.THERMODYNAMICS_DATA_RE = p at *
  obtain ⟨m, h1, h2, h3⟩ := Gets.match_ (p := p) (s := l) (C := fun c => c = capsOf 1 ns []) (by
    rw [hp]
    refine Gets.congr e ?_
    have := gets_lfs (r := .eps) (C := fun c => c = capsOf 1 ns []) ns 1 (pre := []) (caps := []) ha hv
      fun _ _ _ => Gets.eps rfl
    rw [hok] at this
    exact this)
  exact ⟨m, h1, groupVals_labels 1 h2 (h3.trans hnm) hok⟩

theorem stack_row_pre {a : Dict Key PyVal} {labels : List Str} (hd : (a.keys ++ labels.map Key.str).Nodup) (rows : List (List Numeral)) (ns : List Numeral)
    (hl : ns.length = labels.length) :
    stackInto (a ++ colsOf labels rows) ((labels.zip ns).map fun p => (Key.str p.1, PyVal.str p.2.text)) =
      .ok (a ++ colsOf labels (rows ++ [ns])) := by
  have hz : labels.zipIdx.map (fun p => Key.str p.1) = labels.map Key.str :=
    zipIdx_fst labels Key.str
  have hc : colsOf labels (rows ++ [ns]) = labels.zipIdx.map fun p =>
      (Key.str p.1, PyVal.list ((rows.filterMap fun r => (r[p.2]?).map fun n => PyVal.str n.text) ++ [cellOf ns p.2])) := by
    rw [colsOf, if_neg (by simp)]
    apply List.map_congr_left
    intro p hp
    have := (List.mem_zipIdx hp).2.1
    rw [column_snoc (by omega)]
  rw [← hz] at hd
  rw [row_cells hl, hc]
  by_cases hr : rows = []
  · subst hr
    have e := stack_fresh (labels.zipIdx.map fun p => (Key.str p.1, cellOf ns p.2)) a (by rw [List.map_map]; exact hd)
    rw [colsOf, if_pos rfl, List.append_nil]
    rw [e]
    simp [List.map_map, Function.comp_def]
  · have e := stack_more (labels.zipIdx.map fun p =>
      (Key.str p.1, (rows.filterMap fun r => (r[p.2]?).map fun n => PyVal.str n.text), cellOf ns p.2)) a
      (by rw [List.map_map]; exact hd)
    rw [colsOf, if_neg hr]
    simpa [List.map_map, Function.comp_def] using e

theorem fix_absent {a : Dict Key PyVal} : ∀ {labels : List Str}, (∀ l ∈ labels, Key.str l ∉ a.keys) →
    fix_data_types a (labels.map fun c => (.str c, .float)) = .ok a
  | [], _ => rfl
  | l :: ls, h => by
    rw [List.map_cons, fix_data_types, (Dict.get?_eq_none a _).2 (h l (by simp))]
    exact fix_absent fun l hl => h l (by simp [hl])

theorem fix_table_pre {rd : Numeral → F64} {a : Dict Key PyVal} {labels : List Str} (hd : (a.keys ++ labels.map Key.str).Nodup) (rows : List (List Numeral))
    (h : ∀ r ∈ rows, ∀ n ∈ r, parse_float_or_rational n.text = .ok (rd n)) :
    fix_data_types (a ++ colsOf labels rows) (labels.map fun c => (.str c, .float)) = .ok (a ++ columnTable rd labels rows) := by
  have hz : labels.zipIdx.map (fun p => Key.str p.1) = labels.map Key.str :=
    zipIdx_fst labels Key.str
  by_cases hr : rows = []
  · subst hr
    rw [colsOf, if_pos rfl, columnTable, if_pos rfl, List.append_nil]
    refine fix_absent fun l hl hm => ?_
    rw [List.nodup_append] at hd
    exact hd.2.2 _ hm _ (List.mem_map_of_mem hl) rfl
  · rw [← hz] at hd
    have e := fix_cols (labels.zipIdx.map fun p =>
      (Key.str p.1, PyVal.list (rows.filterMap fun r => (r[p.2]?).map fun n => PyVal.str n.text),
        PyVal.tuple (rows.filterMap fun r => (r[p.2]?).map fun n => PyVal.float (rd n)))) a
      (by rw [List.map_map]; exact hd)
      (by
        intro p hp
        simp only [List.mem_map] at hp
        obtain ⟨q, -, rfl⟩ := hp
        exact column_typed h)
    rw [colsOf, if_neg hr, columnTable, if_neg hr]
    have e2 : labels.map (fun c => (Key.str c, Ty.float)) = labels.zipIdx.map fun p => (Key.str p.1, Ty.float) :=
      (zipIdx_fst labels fun c => (Key.str c, Ty.float)).symm
    rw [e2]
    simpa [List.map_map, Function.comp_def] using e

theorem thermo_skip {l : Str} (h : ThermoOther l) (d : Dict Key PyVal) : thermoLine d l = .ok d := by
  unfold thermoLine
  rw [contains_false h.2, lf_miss (p := Res.THERMODYNAMICS_DATA_RE) (by rw [THERMO_eq]; rfl) h.1]
  rfl

theorem thermo_zero {l : Str} {n : Numeral} {fl : Numeral → F64} (h : ThermoZero l n) (hn : n.Valid) (hr : pyFloat n.text = .ok (fl n)) (d : Dict Key PyVal) :
    thermoLine d l = .ok (d.set (.str (py"zero_point_energy")) (.float (fl n))) := by
  obtain ⟨h1, h2, ns, h3, h4⟩ := h
  unfold thermoLine
  rw [(Str.contains_iff _ _).2 h2, lf_miss (p := Res.THERMODYNAMICS_DATA_RE) (by rw [THERMO_eq]; rfl) h1,
    Scf.floatAt_eq h3 (by simpa using ⟨hn, h4⟩) 0 rfl, floatV, hr]
  rfl

theorem thermo_rows {a : Dict Key PyVal} (hd : (a.keys ++ thermoLabels.map Key.str).Nodup) {ls : List Str} {rows : List (List Numeral)}
    (h : Interleaved ThermoOther ThermoRow ls rows) :
    ∀ done, (∀ r ∈ rows, r.length = 5 ∧ ∀ n ∈ r, n.Valid) →
      foldLines thermoLine (a ++ colsOf thermoLabels done) ls = .ok (a ++ colsOf thermoLabels (done ++ rows)) := by
  induction h with
  | nil => intro done _; rw [foldLines, List.append_nil]
  | @skip l ls rs hn _ ih =>
    intro done hok
    rw [foldLines, thermo_skip hn]
    exact ih done hok
  | @row l ls r rows hr _ ih =>
    intro done hok
    obtain ⟨m, h1, h2⟩ := thermo_match hr.1 (hok r (by simp)).1 (hok r (by simp)).2
    have : thermoLine (a ++ colsOf thermoLabels done) l = .ok (a ++ colsOf thermoLabels (done ++ [r])) := by
      unfold thermoLine
      rw [contains_false hr.2, h1]
      show stackInto _ (groupVals m) = _
      rw [h2, stack_row_pre hd done r (hok r (by simp)).1]
    rw [foldLines, this]
    show foldLines thermoLine _ ls = _
    rw [ih _ fun x hx => hok x (by simp [hx])]
    simp

end IonTab
end Verif

import Verif.Spec.Constraints
import Verif.Lemmas.DeltaScf
/-
Internal coordinates in a `.castep` file.
-/
namespace Verif
open Spec Castep Re NumRe AtomRe

set_option maxRecDepth 4000

/-- Starts with a sign. -/
def SignFirst (s : Str) : Prop := ∃ c r, s = c :: r ∧ (c = 43 ∨ c = 45)

theorem run_E_none_sign (n : Numeral) (hn : n.Valid) (he : n.exp = none) (pre rest : Str) (caps) (k : St → Option β) (hr : SignFirst rest) :
    run E ⟨pre, n.text ++ rest, caps⟩ k = none := by
  apply run_none
  intro w t hs hl
  exfalso
  obtain ⟨c, r, rfl, hc⟩ := hr
  obtain ⟨m, hm, hme, rfl⟩ := lang_E hl
  obtain ⟨sg, ip, fr, ex⟩ := m
  obtain ⟨h1, h2, -, -⟩ := hm
  match ex, hme with
  | some (up, sg', ds), _ =>
    have e := hs.post
    have ht : (⟨sg, ip, fr, some (up, sg', ds)⟩ : Numeral).text ++ t.post =
        (Numeral.signText sg ++ (ip ++ Numeral.fracText fr)) ++ (if up then 69 else 101) :: (Numeral.signText sg' ++ ds ++ t.post) := by
      cases up <;> simp [Numeral.text, Numeral.expText]
    have hv : ∀ d ∈ ip ++ Numeral.fracText fr, isDigit d = true ∨ d = 46 := by
      intro d hd
      rcases List.mem_append.1 hd with hd | hd
      · left; rw [isDigit_iff]; exact h1 d hd
      · match fr, h2, hd with
        | some fr, h2, hd =>
          simp [Numeral.fracText] at hd
          rcases hd with rfl | hd
          · simp
          · left; rw [isDigit_iff]; exact h2 d hd
    have hne := text_ne_nil n hn
    have hch := text_chars n hn he
    rw [ht] at e
    rcases append_cases e with ⟨y, h3, h4⟩ | ⟨x, y, h3, h4⟩
    · cases y with
      | nil => simp at h4; cases up <;> simp at h4 <;> omega
      | cons d y =>
        have hd : d = c := by simp at h4; exact h4.1.symm
        subst hd
        have hdm : d ∈ ip ++ Numeral.fracText fr := by
          match sg, h3 with
          | none, h3 =>
            simp only [Numeral.signText, List.nil_append] at h3
            rw [h3]; simp
          | some sg, h3 =>
            cases hnt : n.text with
            | nil => exact absurd hnt hne
            | cons a q =>
              rw [hnt] at h3
              have h3' : ip ++ Numeral.fracText fr = q ++ d :: y := by
                cases sg <;> simp [Numeral.signText] at h3 <;> exact h3.2
              rw [h3']; simp
        rcases hv d hdm with h | h
        · rcases hc with rfl | rfl <;> cases h
        · omega
    · simp at h4
      have := hch x (by rw [h3]; simp)
      rw [← h4.1] at this
      cases up <;> simp [isDigit] at this

theorem num_matchAt_sign (n : Numeral) (hn : n.Valid) (he : n.exp = none) (pre rest : Str) (hp : pre.head? ≠ some 46) (hr : SignFirst rest) :
    ∃ x, Res.NUMBER_RE.matchAt pre (n.text ++ rest) = some x ∧ x.whole = n.text := by
  have h : run N ⟨pre, n.text ++ rest, []⟩ some = some ⟨n.text.reverse ++ pre, rest, []⟩ := by
    rw [N, run_alt, run_E_none_sign n hn he pre rest [] some hr, Option.none_or]
    obtain ⟨c, r, rfl, hc⟩ := hr
    refine run_FI n hn he pre _ [] some _ hp ?_ ?_ rfl
    · intro d hd; cases hd; rcases hc with rfl | rfl <;> rfl
    · rcases hc with rfl | rfl <;> simp
  refine ⟨_, by rw [Pat.matchAt_eq, NUMBER_eq, h]; rfl, ?_⟩
  simp [St.upTo]

theorem printed_ne {ns : List Numeral} {s : Str} (h : Tight ns s) : ns ≠ [] := by cases h <;> simp

theorem printed_sign {m : Numeral} {ns : List Numeral} {s : Str} (h : Tight (m :: ns) s) (hm : m.sign ≠ none) : SignFirst s := by
  have key : ∀ r, SignFirst (m.text ++ r) := by
    intro r
    obtain ⟨sg, ip, fr, ex⟩ := m
    match sg, hm with
    | some true, _ => exact ⟨45, _, rfl, .inr rfl⟩
    | some false, _ => exact ⟨43, _, rfl, .inl rfl⟩
  cases h with
  | last _ t => exact key t
  | gap _ g ns s _ _ => exact key (g ++ s)
  | tight _ m ns s _ _ _ => exact key s

theorem int_last {n : Numeral} (hn : n.Valid) (hi : n.IsInt) (pre : Str) : (n.text.reverse ++ pre).head? ≠ some 46 := by
  obtain ⟨sg, ip, fr, ex⟩ := n
  obtain ⟨rfl, rfl⟩ := hi
  obtain ⟨h1, -, h3, -⟩ := hn
  rcases List.eq_nil_or_concat ip with rfl | ⟨q, c, rfl⟩
  · simp at h3
  · have := h1 c (by simp)
    simp [Numeral.text, Numeral.fracText, Numeral.expText]
    omega

theorem gap_parts {g : Str} (h : Between g) : NoDigits g ∧ EndsNumber g ∧ ∀ c, g.getLast? = some c → c ≠ 43 ∧ c ≠ 45 ∧ c ≠ 46 := by
  have hd : NoDigits g := by
    intro c hc
    cases hh : isDigit c with
    | false => rfl
    | true => exact absurd ((isDigit_iff c).1 hh) (h.noDigit c hc)
  refine ⟨hd, ⟨fun c hc => hd c (List.mem_of_head? hc), ?_, ⟨?_, ?_⟩, ⟨?_, ?_⟩⟩, fun c hc => ?_⟩
  · intro hc; exact h.first _ hc (by decide)
  · intro hc; exact h.first _ hc (by decide)
  · intro hc; exact h.first _ hc (by decide)
  · intro hc; exact h.first _ hc (by decide)
  · intro hc; exact h.first _ hc (by decide)
  · have := h.last c hc
    refine ⟨?_, ?_, ?_⟩ <;> rintro rfl <;> exact this (by decide)

theorem find_printed {ns : List Numeral} {s : Str} (h : Tight ns s) : ∀ (g pre : Str) (fuel : Nat), (∀ n ∈ ns, n.Valid) → NoDigits g →
    (∀ c, g.getLast? = some c → c ≠ 43 ∧ c ≠ 45 ∧ c ≠ 46) → (g.reverse ++ pre).head? ≠ some 46 → ns.length ≤ fuel →
    (Res.NUMBER_RE.findFrom fuel pre (g ++ s)).map (·.whole) = ns.map Numeral.text := by
  induction h with
  | last n t ht =>
    intro g pre fuel hv hg hl hp hf
    have hd : NoDigits t := by
      intro c hc
      cases hh : isDigit c with
      | false => rfl
      | true => exact absurd ((isDigit_iff c).1 hh) (ht.noDigit c hc)
    have := find_numbers [(n, t)] g pre fuel (.last n t (hv n (by simp)) hd ⟨fun c hc => hd c (List.mem_of_head? hc),
      fun hc => ht.first _ hc (by decide), ⟨fun hc => ht.first _ hc (by decide), fun hc => ht.first _ hc (by decide)⟩,
      ⟨fun hc => ht.first _ hc (by decide), fun hc => ht.first _ hc (by decide)⟩⟩) hg hl hp (by simpa using hf)
    simpa [numText] using this
  | gap n g' ns s hb hs ih =>
    intro g pre fuel hv hg hl hp hf
    obtain ⟨fuel, rfl⟩ : ∃ f, fuel = f + 1 := ⟨fuel - 1, by simp at hf; omega⟩
    obtain ⟨b1, b2, b3⟩ := gap_parts hb
    obtain ⟨x, hx, hw⟩ := num_matchAt_some n (hv n (by simp)) (g.reverse ++ pre) (g' ++ s) hp (endsNumber_append hb.nonempty b2)
    rw [Pat.findFrom_cons _ fuel pre g n.text _ x (text_ne_nil n (hv n (by simp))) (num_gap_none g pre _ hg hl) hx hw]
    simp only [List.map_cons, hw]
    refine congrArg (List.cons _) ?_
    refine ih g' _ fuel (fun m hm => hv m (by simp [hm])) b1 b3 ?_ (by simp at hf; omega)
    cases hlast : g'.getLast? with
    | none => simp at hlast; exact absurd hlast hb.nonempty
    | some c =>
      have := b3 c hlast
      rw [List.head?_append, List.head?_reverse, hlast]
      simp; exact this.2.2
  | tight n m ns s hi hm hs ih =>
    intro g pre fuel hv hg hl hp hf
    obtain ⟨fuel, rfl⟩ : ∃ f, fuel = f + 1 := ⟨fuel - 1, by simp at hf; omega⟩
    have hn := hv n (by simp)
    obtain ⟨x, hx, hw⟩ := num_matchAt_sign n hn hi.2 (g.reverse ++ pre) s hp (printed_sign hs hm)
    rw [Pat.findFrom_cons _ fuel pre g n.text _ x (text_ne_nil n hn) (num_gap_none g pre _ hg hl) hx hw]
    rw [List.map_cons, List.map_cons, hw]
    refine congrArg (List.cons _) ?_
    exact ih [] _ fuel (fun m hm => hv m (by simp at hm ⊢; tauto)) (by intro c hc; cases hc) (by simp) (by rw [List.reverse_nil, List.nil_append]; exact int_last hn hi _) (by simp at hf ⊢; omega)

theorem get_numbers_printed {lead t : Str} {ns : List Numeral} (hl : Leading lead) (h : Tight ns t) (hv : ∀ n ∈ ns, n.Valid) :
    Res.get_numbers (lead ++ t) = ns.map Numeral.text := by
  have hlen : ∀ {ns : List Numeral} {s : Str}, Tight ns s → (∀ n ∈ ns, n.Valid) → ns.length ≤ s.length := by
    intro ns s h
    induction h with
    | last n t _ => intro hv; have := List.length_pos_of_ne_nil (text_ne_nil n (hv n (by simp))); simp; omega
    | gap n g ns s hb _ ih => intro hv; have := ih fun m hm => hv m (by simp [hm]); have := List.length_pos_of_ne_nil (text_ne_nil n (hv n (by simp))); simp; omega
    | tight n m ns s _ _ _ ih => intro hv; have := ih fun x hm => hv x (by simp at hm ⊢; tauto); have := List.length_pos_of_ne_nil (text_ne_nil n (hv n (by simp))); simp only [List.length_cons, List.length_append] at *; omega
  rw [Res.get_numbers, Pat.findall, Pat.finditer]
  have hc : ∀ c, lead.getLast? = some c → c ≠ 43 ∧ c ≠ 45 ∧ c ≠ 46 := by
    intro c hc
    have := hl.last c hc
    refine ⟨?_, ?_, ?_⟩ <;> rintro rfl <;> exact this (by decide)
  refine find_printed h lead [] _ hv ?_ hc ?_ (by have := hlen h hv; simp; omega)
  · intro c hc
    cases hh : isDigit c with
    | false => rfl
    | true => exact absurd ((isDigit_iff c).1 hh) (hl.noDigit c hc)
  · rw [List.append_nil, List.head?_reverse]
    intro h46
    exact (hc _ h46).2.2 rfl

namespace Castep.Internal

theorem ints_ok {ns : List Numeral} (h : ∀ n ∈ ns, n.Valid ∧ n.IsInt) :
    to_type .int (strList (ns.map Numeral.text)) = .ok (.tuple (ns.map fun n => .int (intOf n))) :=
  to_type_strList .int ns Numeral.text _ fun n hn => by
    show (do let i ← pyInt n.text; _) = _
    rw [(pyInt_isInt n (h n hn).1 (h n hn).2).1]; rfl

theorem end_def {e : CoordEnd} {s : Str} (h : e.Text s) (hok : e.Ok) : constraintDef s = .ok (some e.entry) := by
  obtain ⟨-, lead, t, rfl, hl, hp⟩ := h
  rw [constraintDef, get_numbers_printed hl hp fun n hn => (hok n hn).1]
  have h0 := hok e.atom (by simp)
  have hi := ints_ok (ns := e.image) fun n hn => hok n (by simp [hn])
  simp only [List.map_cons, (pyInt_isInt e.atom h0.1 h0.2).1, Delta.ok_bind, hi]
  rfl

theorem tail_def {s : Str} (h : ∀ ch ∈ s, ch ≠ 41 ∧ ¬ (48 ≤ ch ∧ ch ≤ 57)) : constraintDef s = .ok none := by
  rw [constraintDef, MdFrame.get_numbers_none]
  intro c hc
  cases hh : isDigit c with
  | false => rfl
  | true => exact absurd ((isDigit_iff c).1 hh) (h c hc).2

theorem split_ends : ∀ (texts : List Str) (tail : Str), (∀ s ∈ texts, 41 ∉ s) → 41 ∉ tail →
    Str.splitC 41 (texts.flatMap (fun s => s ++ py")") ++ tail) = texts ++ [tail]
  | [], tail, _, h => splitC_of_notMem _ _ h
  | s :: texts, tail, h, ht => by
    rw [List.flatMap_cons, List.append_assoc, List.append_assoc]
    show Str.splitC 41 (s ++ 41 :: (texts.flatMap (fun s => s ++ py")") ++ tail)) = _
    rw [splitC_append _ _ _ (h s (by simp)), split_ends texts tail (fun t ht => h t (by simp [ht])) ht]
    rfl

theorem collect_ends {es : List CoordEnd} {texts : List Str} (h : List.Forall₂ CoordEnd.Text es texts) {tail : Str}
    (ht : ∀ ch ∈ tail, ch ≠ 41 ∧ ¬ (48 ≤ ch ∧ ch ≤ 57)) :
    (∀ e ∈ es, e.Ok) → collect constraintDef (texts ++ [tail]) = .ok (es.map CoordEnd.entry) := by
  induction h with
  | nil => intro _; rw [List.nil_append, collect, tail_def ht]; rfl
  | @cons e s es texts hs _ ih =>
    intro hok
    rw [List.cons_append, collect, end_def hs (hok e (by simp)), ih fun e he => hok e (by simp [he])]
    rfl

theorem texts_closed {es : List CoordEnd} {texts : List Str} (h : List.Forall₂ CoordEnd.Text es texts) : ∀ s ∈ texts, 41 ∉ s := by
  induction h with
  | nil => intro s hs; cases hs
  | cons h _ ih =>
    intro s hs
    rcases List.mem_cons.1 hs with rfl | hs
    · exact h.1
    · exact ih s hs

theorem text_satisfied {n : Numeral} (hn : n.Valid) : n.text ≠ py"Satisfied" := by
  intro e
  obtain ⟨d, hd, h⟩ := text_digit n hn
  rw [e] at hd
  have : ∀ d ∈ py"Satisfied", isDigit d = false := by decide
  rw [this d hd] at h; cases h

theorem row_ok {rd : Numeral → F64} (hrd : ∀ n : Numeral, n.Valid → n.InRange → pyFloat n.text = .ok (rd n)) {l : Str} {c : Constraint}
    (h : c.Line l) (hok : c.Ok) : constraintRow l = .ok (some (c.report rd (Dict.ofList (c.ends.map CoordEnd.entry)))) := by
  obtain ⟨num, defs, texts, tail, hf, he, hx, ht⟩ := h
  obtain ⟨htyp, hn, hends⟩ := hok
  have hs := (fields_iff l _).1 hf
  have hne : (Str.strip l).isEmpty = false := by
    cases hh : Str.strip l with
    | nil =>
      have := split_strip l
      rw [hh, hs] at this; cases this
    | cons _ _ => rfl
  have h1 := hn c.first (by simp)
  have hcoll : collectDict constraintDef (Str.splitC 41 (Str.join (py" ") defs)) = .ok (Dict.ofList (c.ends.map CoordEnd.entry)) := by
    rw [he, split_ends texts tail ?_ fun h => (ht _ h).1 rfl, collectDict, collect_ends hx ht hends]
    · rfl
    · exact texts_closed hx
  rw [constraintRow, if_neg (by simp [hne]), hs]
  obtain ⟨typ, first, second, ends⟩ := c
  cases second with
  | none =>
    simp only [Option.elim]
    rw [if_pos htyp, hcoll]
    simp only [decide_true, if_true, LineTab.floatV_ok (hrd first h1.1 h1.2), Delta.ok_bind]
    rfl
  | some n =>
    have h2 := hn n (by simp)
    simp only [Option.elim]
    rw [if_pos htyp, hcoll]
    simp only [text_satisfied h2.1, decide_false, Bool.false_eq_true, if_false, LineTab.floatV_ok (hrd first h1.1 h1.2),
      LineTab.floatV_ok (hrd n h2.1 h2.2), Delta.ok_bind]
    rfl

theorem row_blank {l : Str} (h : Blank l) : constraintRow l = .ok none := by
  rw [constraintRow, (strip_nil_iff l).2 h]; rfl

/-! ### Delocalised internals -/

abbrev kM : Key := .str (py"constraint_mapping")

/-- The dictionary with these entries. -/
def deloc (ms cs : List (Key × PyVal)) : Dict Key PyVal := (kM, .dict (Dict.ofList ms)) :: Dict.ofList cs

theorem num_ne (name : Str) : (Key.str (py"num_" ++ name)) ≠ kM := by
  intro h
  injection h with h
  have := congrArg List.head? h
  simp at this

theorem set_tail (k : Key) (v : PyVal) (p : Key × PyVal) (d : Dict Key PyVal) (h : k ≠ p.1) : Dict.set (p :: d) k v = p :: Dict.set d k v := by
  obtain ⟨a, b⟩ := p
  rw [Dict.set, if_neg]
  simpa using fun e => h e.symm

theorem deloc_step {it : DelocItem} {l : Str} (h : it.Line l) (hok : it.Ok) (ms cs : List (Key × PyVal)) :
    delocLine (deloc ms cs) l = .ok (deloc (ms ++ it.maps.toList) (cs ++ it.counts.toList)) := by
  cases it with
  | mapping a b =>
    obtain ⟨hs, hn⟩ := h
    obtain ⟨⟨va, ia⟩, vb, ib⟩ := hok
    have hv : ∀ n ∈ [a, b], n.Valid ∧ n.IsInt := by
      intro n hn
      simp only [List.mem_cons, List.not_mem_nil, or_false] at hn
      rcases hn with rfl | rfl
      exacts [⟨va, ia⟩, ⟨vb, ib⟩]
    rw [delocLine, if_pos ((startsWith_iff _ _).2 hs), intsOf, get_numbers_has hn fun n hn => (hv n hn).1, ints_ok hv]
    simp only [List.map_cons, List.map_nil, Delta.ok_bind]
    simp only [DelocItem.maps, DelocItem.counts, Option.toList, List.append_nil, deloc, Params.ofList_snoc]
    simp [setIn, Magres.setSub, Dict.get?, Dict.set]
  | total name n =>
    obtain ⟨hs, ws, hf⟩ := h
    obtain ⟨⟨hne, hc⟩, vn, i⟩ := hok
    have h0 : ¬ Str.startsWith l (py" constraint") = true := by
      obtain ⟨r, rfl⟩ := hs
      simp [Str.startsWith]
    rw [delocLine, if_neg h0, if_pos ((startsWith_iff _ _).2 hs), (fields_iff l _).1 hf]
    have hstrip : Str.stripP (· == (c!":")) (name ++ py":") = name := by
      have := Magres.stripP_mid (p := (· == (c!":"))) (a := []) (w := name) (b := py":") (by simp) (by simp) hne (by
        intro c hcm; simp; rintro rfl; exact hc (List.mem_of_head? hcm)) (by
        intro c hcm; simp; rintro rfl; exact hc (List.mem_of_getLast? hcm))
      simpa using this
    simp only [List.drop_succ_cons, List.drop_zero, List.take_succ_cons, List.take_zero, Delta.intV_ok vn i, Delta.ok_bind, hstrip]
    show Except.ok _ = _
    simp only [DelocItem.maps, DelocItem.counts, Option.toList, List.append_nil, deloc, Params.ofList_snoc]
    rw [set_tail]
    exact num_ne name
  | other =>
    rw [delocLine, if_neg (fun e => h.1 ((startsWith_iff _ _).1 e)), if_neg (fun e => h.2 ((startsWith_iff _ _).1 e))]
    simp [DelocItem.maps, DelocItem.counts]

theorem deloc_fold {items : List DelocItem} {ls : List Str} (h : List.Forall₂ DelocItem.Line items ls) :
    (∀ i ∈ items, i.Ok) → ∀ ms cs, foldLines delocLine (deloc ms cs) ls =
      .ok (deloc (ms ++ items.filterMap DelocItem.maps) (cs ++ items.filterMap DelocItem.counts)) := by
  induction h with
  | nil => intro _ ms cs; simp [foldLines]
  | @cons it l items ls hl _ ih =>
    intro hok ms cs
    rw [foldLines_cons (t := _) (h := deloc_step hl (hok it (by simp)) ms cs), ih fun i hi => hok i (by simp [hi])]
    cases hm : it.maps <;> cases hc : it.counts <;> simp [hm, hc]

theorem countIf_hit {t k l : Str} {n : Numeral} {ns : List Numeral} (ho : Occurs t l) (hn : HasNumbers l (n :: ns)) (hv : ∀ m ∈ n :: ns, m.Valid)
    (hi : n.IsInt) (d : Dict Key PyVal) : countIf t k l d = .ok (d.set (.str k) (.int (intOf n))) := by
  have : to_type .int (.str n.text) = .ok (.int (intOf n)) := by
    show (do let i ← pyInt n.text; _) = _
    rw [(pyInt_isInt n (hv n (by simp)) hi).1]; rfl
  rw [countIf, if_pos (Delta.occ ho), Scf.numAt_eq hn hv 0 rfl, this]
  rfl

theorem countIf_miss {t k l : Str} (ho : ¬ Occurs t l) (d : Dict Key PyVal) : countIf t k l d = .ok d := by
  rw [countIf, if_neg (by rw [Delta.occ_not ho]; simp)]

/-- One line of the report on the active space. -/
def actLine (d : Dict Key PyVal) (line : Str) : PyM (Dict Key PyVal) := do
  let d ← countIf (py"active space") (py"active_space_size") line d
  let d ← countIf (py"degrees") (py"num_dof") line d
  countIf (py"primitive") (py"num_primitive_internals") line d

theorem act_step {l : Str} {es : List (Key × PyVal)} (h : ActLine l es) (xs : List (Key × PyVal)) :
    actLine (Dict.ofList xs) l = .ok (Dict.ofList (xs ++ es)) := by
  rcases h with ⟨h, rfl⟩ | ⟨n, ns, ps, hn, hv, hi, hsub, hps, rfl⟩
  · rw [actLine, countIf_miss (h (py"active space", py"active_space_size") (by simp [ACTIVE])), Delta.ok_bind,
      countIf_miss (h (py"degrees", py"num_dof") (by simp [ACTIVE])), Delta.ok_bind,
      countIf_miss (h (py"primitive", py"num_primitive_internals") (by simp [ACTIVE])), List.append_nil]
  · have hmem : ps ∈ ACTIVE.sublists := List.mem_sublists.2 hsub
    have a1 := hps (py"active space", py"active_space_size") (by simp [ACTIVE])
    have a2 := hps (py"degrees", py"num_dof") (by simp [ACTIVE])
    have a3 := hps (py"primitive", py"num_primitive_internals") (by simp [ACTIVE])
    have one : ∀ {t k : Str} (ys : List (Key × PyVal)) (o : List (Str × Str)), (o = [(t, k)] ∧ Occurs t l) ∨ (o = [] ∧ ¬ Occurs t l) →
        countIf t k l (Dict.ofList ys) = .ok (Dict.ofList (ys ++ o.map fun p => (.str p.2, .int (intOf n)))) := by
      rintro t k ys o (⟨rfl, ho⟩ | ⟨rfl, ho⟩)
      · rw [countIf_hit ho hn hv hi, List.map_cons, List.map_nil, Params.ofList_snoc]
      · rw [countIf_miss ho]; simp
    have three : ∀ o1 o2 o3 : List (Str × Str), ps = o1 ++ (o2 ++ o3) →
        ((o1 = [(py"active space", py"active_space_size")] ∧ Occurs (py"active space") l) ∨ (o1 = [] ∧ ¬ Occurs (py"active space") l)) →
        ((o2 = [(py"degrees", py"num_dof")] ∧ Occurs (py"degrees") l) ∨ (o2 = [] ∧ ¬ Occurs (py"degrees") l)) →
        ((o3 = [(py"primitive", py"num_primitive_internals")] ∧ Occurs (py"primitive") l) ∨ (o3 = [] ∧ ¬ Occurs (py"primitive") l)) →
        actLine (Dict.ofList xs) l = .ok (Dict.ofList (xs ++ ps.map fun p => (.str p.2, .int (intOf n)))) := by
      intro o1 o2 o3 e h1 h2 h3
      rw [actLine, one _ o1 h1, Delta.ok_bind, one _ o2 h2, Delta.ok_bind, one _ o3 h3, e]
      simp
    have hmem' : ps ∈ [[], [(py"active space", py"active_space_size")], [(py"degrees", py"num_dof")], [(py"active space", py"active_space_size"), (py"degrees", py"num_dof")],
        [(py"primitive", py"num_primitive_internals")], [(py"active space", py"active_space_size"), (py"primitive", py"num_primitive_internals")],
        [(py"degrees", py"num_dof"), (py"primitive", py"num_primitive_internals")], ACTIVE] := hmem
    simp only [List.mem_cons, List.not_mem_nil, or_false] at hmem'
    rcases hmem' with rfl | rfl | rfl | rfl | rfl | rfl | rfl | rfl
    · exact three [] [] [] rfl (.inr ⟨rfl, fun h => absurd (a1.2 h) (by decide)⟩) (.inr ⟨rfl, fun h => absurd (a2.2 h) (by decide)⟩) (.inr ⟨rfl, fun h => absurd (a3.2 h) (by decide)⟩)
    · exact three [_] [] [] rfl (.inl ⟨rfl, a1.1 (by decide)⟩) (.inr ⟨rfl, fun h => absurd (a2.2 h) (by decide)⟩) (.inr ⟨rfl, fun h => absurd (a3.2 h) (by decide)⟩)
    · exact three [] [_] [] rfl (.inr ⟨rfl, fun h => absurd (a1.2 h) (by decide)⟩) (.inl ⟨rfl, a2.1 (by decide)⟩) (.inr ⟨rfl, fun h => absurd (a3.2 h) (by decide)⟩)
    · exact three [_] [_] [] rfl (.inl ⟨rfl, a1.1 (by decide)⟩) (.inl ⟨rfl, a2.1 (by decide)⟩) (.inr ⟨rfl, fun h => absurd (a3.2 h) (by decide)⟩)
    · exact three [] [] [_] rfl (.inr ⟨rfl, fun h => absurd (a1.2 h) (by decide)⟩) (.inr ⟨rfl, fun h => absurd (a2.2 h) (by decide)⟩) (.inl ⟨rfl, a3.1 (by decide)⟩)
    · exact three [_] [] [_] rfl (.inl ⟨rfl, a1.1 (by decide)⟩) (.inr ⟨rfl, fun h => absurd (a2.2 h) (by decide)⟩) (.inl ⟨rfl, a3.1 (by decide)⟩)
    · exact three [] [_] [_] rfl (.inr ⟨rfl, fun h => absurd (a1.2 h) (by decide)⟩) (.inl ⟨rfl, a2.1 (by decide)⟩) (.inl ⟨rfl, a3.1 (by decide)⟩)
    · exact three [_] [_] [_] rfl (.inl ⟨rfl, a1.1 (by decide)⟩) (.inl ⟨rfl, a2.1 (by decide)⟩) (.inl ⟨rfl, a3.1 (by decide)⟩)

theorem act_fold {ls : List Str} {ess : List (List (Key × PyVal))} (h : List.Forall₂ ActLine ls ess) :
    ∀ xs, foldLines actLine (Dict.ofList xs) ls = .ok (Dict.ofList (xs ++ ess.flatten)) := by
  induction h with
  | nil => intro xs; simp [foldLines]
  | cons hl _ ih =>
    intro xs
    rw [foldLines_cons (h := act_step hl xs), ih]
    simp

end Castep.Internal
end Verif

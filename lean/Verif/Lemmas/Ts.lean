import Verif.Spec.Ts
import Verif.Lemmas.MdFrameSays
import Verif.Lemmas.Magres
import Verif.Lemmas.Tddft
/-
`.ts` files.
-/
namespace Verif.Ts
open Re NumRe AtomRe Spec MdFrame

/-! ### Rows of numbers are not taken for atoms -/

theorem numeral_upper {n : Numeral} (hn : n.Valid) {x y : Str} {c : Nat} (e : n.text = x ++ c :: y) (hc : isUpper c = true) :
    ∃ d y', y = d :: y' ∧ (d = 43 ∨ d = 45 ∨ isDigit d = true) := by
  obtain ⟨sg, ip, fr, ex⟩ := n
  obtain ⟨h1, h2, h3, h4⟩ := hn
  have hup : ∀ d, (48 ≤ d ∧ d ≤ 57) → isUpper d = false := by intro d hd; simp [isUpper]; omega
  have key : ∀ (a b : Str), (∀ d ∈ a, isUpper d = false) → ∀ (x : Str), a ++ b = x ++ c :: y → ∃ x', b = x' ++ c :: y := by
    intro a
    induction a with
    | nil => intro b _ x e; exact ⟨x, e⟩
    | cons d a ih =>
      intro b ha x e
      cases x with
      | nil => simp at e; have := ha d (by simp); rw [e.1, hc] at this; cases this
      | cons d' x => simp at e; exact ih b (fun d hd => ha d (by simp [hd])) x e.2
  simp only [Numeral.text, List.append_assoc] at e
  obtain ⟨x1, e⟩ := key _ _ (by intro d hd; rcases sg with _ | _ | _ <;> simp [Numeral.signText] at hd <;> subst hd <;> decide) _ e
  obtain ⟨x2, e⟩ := key _ _ (fun d hd => hup d (h1 d hd)) _ e
  obtain ⟨x3, e⟩ := key _ _ (by
    intro d hd
    cases fr with
    | none => simp [Numeral.fracText] at hd
    | some ds =>
      simp only [Numeral.fracText, List.mem_cons] at hd
      rcases hd with rfl | hd
      · decide
      · exact hup d (h2 d hd)) _ e
  cases ex with
  | none => simp [Numeral.expText] at e
  | some p =>
    obtain ⟨up, sg', ds⟩ := p
    obtain ⟨k1, k2⟩ := h4 _ rfl
    have hnot : ∀ d ∈ Numeral.signText sg' ++ ds, isUpper d = false := by
      intro d hd
      rcases List.mem_append.1 hd with hd | hd
      · rcases sg' with _ | _ | _ <;> simp [Numeral.signText] at hd <;> subst hd <;> decide
      · exact hup d (k1 d hd)
    simp only [Numeral.expText] at e
    have e' : (if up then (69 : Nat) else 101) :: (Numeral.signText sg' ++ ds) = x3 ++ c :: y := by
      rw [← e]; cases up <;> simp
    cases x3 with
    | cons d x3 =>
      simp at e'
      have : c ∈ Numeral.signText sg' ++ ds := by rw [e'.2]; simp
      rw [hnot c this] at hc; cases hc
    | nil =>
      simp at e'
      rw [← e'.2]
      rcases sg' with _ | _ | _
      · cases ds with
        | nil => have := k2.1; simp at this
        | cons d ds => exact ⟨d, ds, rfl, .inr (.inr ((isDigit_iff d).2 (k1 d (by simp))))⟩
      · exact ⟨43, ds, rfl, .inl rfl⟩
      · exact ⟨45, ds, rfl, .inr (.inl rfl)⟩

/-- What follows a capital letter of a row of numbers. -/
theorem row_upper : ∀ (ns : List (Str × Numeral)), (∀ p ∈ ns, Blank p.1 ∧ p.2.Valid) → ∀ (x y : Str) (c : Nat),
    ns.flatMap gapNum = x ++ c :: y → isUpper c = true → ∃ d y', y = d :: y' ∧ (d = 43 ∨ d = 45 ∨ isDigit d = true)
  | [], _, x, y, c, e, _ => by simp at e
  | (g, n) :: ns, h, x, y, c, e, hc => by
    obtain ⟨hg, hn⟩ := h (g, n) (by simp)
    rw [List.flatMap_cons, gapNum, List.append_assoc] at e
    rcases List.append_eq_append_iff.1 e with ⟨a, h1, h2⟩ | ⟨a, h1, h2⟩
    · rcases List.append_eq_append_iff.1 h2 with ⟨b, h3, h4⟩ | ⟨b, h3, h4⟩
      · exact row_upper ns (fun p hp => h p (by simp [hp])) b y c h4 hc
      · cases b with
        | nil => exact row_upper ns (fun p hp => h p (by simp [hp])) [] y c (by simpa using h4.symm) hc
        | cons d b =>
          simp at h4
          rw [← h4.1] at h3
          obtain ⟨d', y', e', hd⟩ := numeral_upper hn h3 hc
          exact ⟨d', y' ++ ns.flatMap gapNum, by rw [h4.2, e']; rfl, hd⟩
    · cases a with
      | nil =>
        simp at h2
        cases ht : n.text with
        | nil => exact absurd ht (text_ne_nil n hn)
        | cons d t =>
          rw [ht] at h2
          simp at h2
          obtain ⟨d', y', e', hd⟩ := numeral_upper hn (x := []) (by rw [ht, ← h2.1]; rfl) hc
          exact ⟨d', y' ++ ns.flatMap gapNum, by rw [h2.2, e']; rfl, hd⟩
      | cons d a =>
        simp at h2
        have := hg c (by rw [h1, ← h2.1]; simp)
        simp [isUpper] at hc
        simp [isSpace] at this
        omega

/-- A name goes on with a small letter, a colon, a bracket or a blank. -/
theorem name_lang {w : Str} (h : Lang A w) : ∃ c w', w = c :: w' ∧ isUpper c = true ∧
    ∀ d ∈ w'.head?, ¬ (d = 43 ∨ d = 45 ∨ isDigit d = true) := by
  obtain ⟨a, b, rfl, ha, a1, b1, rfl, ⟨c, hc, rfl⟩, a2, b2, rfl, h2, a3, b3, rfl, h3, a4, b4, rfl, h4, h5⟩ := h
  obtain rfl : a = [] := ha
  obtain rfl : a4 = [] := h4
  refine ⟨c, a2 ++ (a3 ++ b4), by simp, ?_, ?_⟩
  · have := (has_upS c).1 hc
    simp [isUpper]; omega
  · intro d hd
    cases a2 with
    | cons x a2 =>
      simp at hd; subst hd
      have := (has_lowS x).1 (((lang_rep_set _ _ _ _ _).1 h2).1 x (by simp))
      simp [isDigit]; omega
    | nil =>
      obtain ⟨ws3, rfl, -, -, hw3⟩ := h3
      cases ws3 with
      | cons x ws3 =>
        obtain ⟨u, v, rfl, ⟨z, hz, rfl⟩, -⟩ := hw3 x (by simp)
        rw [has_ch] at hz
        simp at hz hd
        subst hz; subst hd
        decide
      | nil =>
        obtain ⟨ws5, rfl, -, -, hw5⟩ := h5
        cases ws5 with
        | nil => simp at hd
        | cons x ws5 =>
          obtain ⟨u, v, rfl, hu, p, q, rfl, ⟨z, hz, rfl⟩, -⟩ := hw5 x (by simp)
          cases u with
          | nil =>
            rw [has_ch] at hz
            simp at hz hd
            subst hz; subst hd
            decide
          | cons y u =>
            simp at hd
            subst hd
            have := ((lang_rep_set _ _ _ _ _).1 hu).1 y (by simp)
            rw [has_sp] at this
            simp [isSpace] at this
            simp [isDigit]
            omega

theorem lang_DT {w : Str} (h : Lang DT w) : ∃ s a i t, w = s ++ (a ++ (i ++ t)) ∧ Lang A a ∧ (∃ c i', i = c :: i' ∧ isSpace c = true) ∧
    (∃ c ∈ i, isDigit c = true) := by
  obtain ⟨s, b, rfl, -, a, b1, rfl, ha, i, b2, rfl, hi, j, b3, rfl, hj, -⟩ := h
  have hi := (lang_rep_set _ _ _ _ _).1 hi
  have hj : Lang (plus dig) j := hj
  have hj := (lang_rep_set _ _ _ _ _).1 hj
  refine ⟨s, a, i ++ j, b3, by simp, ha, ?_, ?_⟩
  · cases i with
    | nil => have := hi.2.1; simp at this
    | cons c i => exact ⟨c, i ++ j, rfl, by have := hi.1 c (by simp); rwa [has_sp] at this⟩
  · cases j with
    | nil => have := hj.2.1; simp at this
    | cons c j => exact ⟨c, by simp, by have := hj.1 c (by simp); rwa [has_dig] at this⟩

theorem ADT_re : Res.ATOMIC_DATA_TAG.re = DT := by rw [ATOMIC_DATA_TAG_eq]

attribute [local irreducible] Res.ATOMIC_DATA_TAG

theorem lang_ADT {p : Pat} {w : Str} (hp : p.re = DT) (h : Lang p.re w) : Lang DT w := hp ▸ h

theorem search_glob_none (ns : List (Str × Numeral)) (g g' tag tail : Str) (h : (FLine.glob ns g g' tag tail).Ok) :
    Res.ATOMIC_DATA_TAG.search (FLine.glob ns g g' tag tail).text = none := by
  obtain ⟨hns, hne, hg, hg', ⟨ht, htw, -, htail⟩, hd1, hd2⟩ := h
  cases hm : Res.ATOMIC_DATA_TAG.search (FLine.glob ns g g' tag tail).text with
  | none => rfl
  | some m =>
    exfalso
    obtain ⟨a, b, e, hl⟩ := search_found hm
    have hl := lang_ADT ADT_re hl
    obtain ⟨s, nm, i, t, hw, hA, ⟨sc, i', rfl, hsc⟩, ⟨dc, hdc, hdd⟩⟩ := lang_DT hl
    obtain ⟨c, w', rfl, hc, hh⟩ := name_lang hA
    rw [hw, FLine.text] at e
    have e : ns.flatMap gapNum ++ (g ++ (py"<--" ++ (g' ++ (tag ++ tail)))) = (a ++ s) ++ c :: (w' ++ ((sc :: i') ++ (t ++ b))) := by
      rw [e]; simp
    have hdig : FLine.NoDigit (g ++ (py"<--" ++ (g' ++ (tag ++ tail)))) := by
      intro c hc
      simp only [List.mem_append] at hc
      rcases hc with hc | hc | hc | hc | hc
      · exact (space_facts (hg c hc)).1
      · revert hc; revert c; decide
      · exact (space_facts (hg' c hc)).1
      · exact hd1 c hc
      · exact hd2 c hc
    have hd' := (isDigit_iff dc).1 hdd
    have hbad : ∀ y : Str, y ++ (g ++ (py"<--" ++ (g' ++ (tag ++ tail)))) = w' ++ ((sc :: i') ++ (t ++ b)) →
        (∃ d y', y = d :: y' ∧ (d = 43 ∨ d = 45 ∨ isDigit d = true)) → False := by
      rintro _ ey ⟨d, y', rfl, hd⟩
      cases w' with
      | cons x w' =>
        simp at ey
        exact hh x (by simp) (by rw [← ey.1]; exact hd)
      | nil =>
        simp at ey
        rw [← ey.1] at hsc
        rcases hd with rfl | rfl | hd
        · exact absurd hsc (by decide)
        · exact absurd hsc (by decide)
        · rw [isDigit_not_space hd] at hsc; cases hsc
    have hmem : dc ∈ w' ++ ((sc :: i') ++ (t ++ b)) := List.mem_append_right _ (List.mem_append_left _ hdc)
    rcases List.append_eq_append_iff.1 e with ⟨x, h1, h2⟩ | ⟨x, h1, h2⟩
    · exact hdig dc (by rw [h2]; exact List.mem_append_right _ (List.mem_cons_of_mem _ hmem)) hd'
    · cases x with
      | nil => exact hdig dc (by rw [List.nil_append] at h2; rw [← h2]; exact List.mem_cons_of_mem _ hmem) hd'
      | cons x0 x =>
        simp at h2
        rw [← h2.1] at h1
        exact hbad x (by simpa using h2.2.symm) (row_upper ns hns _ _ _ h1 hc)

/-- A line without a tag is not about an atom. -/
theorem search_no_tag (l : Str) (h : c!"<" ∉ l) : Res.ATOMIC_DATA_TAG.search l = none := by
  cases hm : Res.ATOMIC_DATA_TAG.search l with
  | none => rfl
  | some m =>
    exfalso
    obtain ⟨a, b, rfl, hl⟩ := search_found hm
    have hl := lang_ADT ADT_re hl
    obtain ⟨u1, v1, e1, -, u2, v2, rfl, -, u3, v3, rfl, -, u4, v4, rfl, -, u5, v5, rfl, -, u6, v6, rfl, -, u7, v7, rfl, -, u8, v8, rfl, -,
      u9, v9, rfl, ⟨c, hc, rfl⟩, -⟩ := hl
    rw [has_ch] at hc
    simp at hc; subst hc
    exact h (by rw [e1]; simp)

/-! ### One structure -/

set_option maxRecDepth 20000 in
theorem step_eq (curr : Dict Key PyVal) (line : Str) : step curr line = (
    match Res.ATOMIC_DATA_TAG.search line with
    | some m => do
      let ion ← atreg_match m
      let v ← to_type .float (.list (Res.FST_D.map fun d => optStr (m.named d)))
      setIon curr ion (MdGeom.tagKey m) v
    | none =>
      match Res.TAG_RE.search line with
      | some m => do
        let row ← MdGeom.rowOf line
        MdGeom.appendTo curr (MdGeom.tagKey m) row
      | none => .ok curr) := rfl

theorem step_plain (curr : Dict Key PyVal) (l : Str) (h : c!"<" ∉ l) : step curr l = .ok curr := by
  rw [step_eq, search_no_tag l h, search_tag_none l h]

theorem step_glob (curr : Dict Key PyVal) {val : Numeral → F64} (ns : List (Str × Numeral)) (g g' tag tail : Str)
    (h : (FLine.glob ns g g' tag tail).Ok) (hv : MdFrame.Reads val (FLine.glob ns g g' tag tail).numerals) :
    step curr (FLine.glob ns g g' tag tail).text =
      MdGeom.appendTo curr (.str tag) (.list (ns.map fun p => .float (val p.2))) := by
  have hs := search_glob_none ns g g' tag tail h
  have hmd := MdFrame.step_glob curr ns g g' tag tail h hv
  obtain ⟨hns, hne, hg, hg', ⟨ht, htw, -, htail⟩, hd1, hd2⟩ := h
  let a := ns.flatMap gapNum ++ g
  have ea : (FLine.glob ns g g' tag tail).text = a ++ (py"<--" ++ (g' ++ (tag ++ tail))) := by simp [FLine.text, a]
  have hnb : ¬ Blank (FLine.glob ns g g' tag tail).text :=
    not_blank_of_mem (c := 60) (by rw [ea]; simp) rfl
  have hlt : c!"<" ∉ a := by
    simp only [a, List.mem_append, not_or]; exact ⟨no_lt_row ns hns, no_lt_blank hg⟩
  obtain ⟨m, hm, hmt⟩ := search_tag a g' tag tail hlt hg' ht htw htail
  have hatom : Res.ATOMIC_DATA_TAG.match_ (FLine.glob ns g g' tag tail).text = none := by
    cases hm : Res.ATOMIC_DATA_TAG.match_ (FLine.glob ns g g' tag tail).text with
    | none => rfl
    | some x =>
      rw [Pat.search, Pat.searchFrom_of_matchAt hm] at hs
      cases hs
  rw [MdGeom.step, if_neg (by rw [strip_isEmpty]; exact hnb)] at hmd
  simp only [hatom] at hmd
  rw [step_eq, hs]
  rw [← ea] at hm
  simp only [hm] at hmd ⊢
  exact hmd

theorem step_atom (curr : Dict Key PyVal) {val : Numeral → F64} (g : Str) (name : AtomName) (gi idx : Str)
    (x y z : Str × Numeral) (gt g' tag tail : Str)
    (h : (FLine.atom g name gi idx x y z gt g' tag tail).Ok) (hv : MdFrame.Reads val [x.2, y.2, z.2]) :
    step curr (FLine.atom g name gi idx x y z gt g' tag tail).text =
      setIon curr (.tup [.str name.text, .int (Numeral.nat idx)]) (.str tag)
        (.tuple [.float (val x.2), .float (val y.2), .float (val z.2)]) := by
  obtain ⟨m, hm, h1, h2, h3, h4, h5, h6⟩ := match_atom g name gi idx x y z gt g' tag tail h
  obtain ⟨hg, hname, hgi, hgi', hidx', hidx, hxyz, hgt, hg', ht, htw, -, htail⟩ := h
  rw [step_eq, Pat.search, Pat.searchFrom_of_matchAt hm]
  simp only
  rw [atreg_match, h2, intOfGroup_digits idx hidx hidx', h1]
  have hvec := toTypeList_reads (val := val) (ns := [x.2, y.2, z.2]) (fun n hn => (hv n hn).2)
  have e : (Res.FST_D.map fun d => optStr (m.named d)) = [x.2, y.2, z.2].map fun n => .str n.text := by
    simp [Res.FST_D, h3, h4, h5, optStr]
  rw [e, to_type, hvec]
  show setIon curr _ (MdGeom.tagKey m) _ = _
  simp [MdGeom.tagKey, h6]

/-- Long names added where some may be there already. -/
theorem alias_again (d : Dict Key PyVal) (hd : d.keys.Nodup)
    (hlong : ∀ p ∈ longName, d.get? (.str p.1) = none → d.get? (.str p.2) = none) :
    (∀ name, (add_aliases d tagAliases).2.get? (.str name) = d.get? (.str (tagOf name))) ∧
    ∀ k, (∀ s, k ≠ .str s) → (add_aliases d tagAliases).2.get? k = d.get? k := by
  have hA := Props.C27_aliases d tagAliases false true hd (by decide +kernel) (by decide +kernel) (by decide +kernel)
  simp only [← (Props.C27_inplace d tagAliases false).2] at hA
  obtain ⟨h1, -, h3⟩ := hA
  refine ⟨fun name => ?_, fun k hk => ?_⟩
  · unfold tagOf
    cases hf : longName.find? (·.2 = name) with
    | none =>
      rw [Option.map_none, Option.getD_none]
      apply h3 (.str name) _ (by simp)
      intro f hm
      rw [tagAliases_eq, List.mem_map] at hm
      obtain ⟨p, hp, e⟩ := hm
      rw [List.find?_eq_none] at hf
      simp at e
      exact absurd e.2 (by simpa using hf p hp)
    | some p =>
      have hp := List.mem_of_find?_eq_some hf
      have hn : p.2 = name := by simpa using List.find?_some hf
      rw [Option.map_some, Option.getD_some]
      cases hv : d.get? (.str p.1) with
      | some v =>
        exact h1 (.str p.1) (.str name) v (by rw [tagAliases_eq, ← hn]; exact List.mem_map.2 ⟨p, hp, rfl⟩) hv
      | none =>
        rw [← hlong p hp hv, hn]
        apply h3 (.str name) _ (by simp)
        intro f hm
        rw [tagAliases_eq, List.mem_map] at hm
        obtain ⟨q, hq, e⟩ := hm
        simp at e
        have hinj : ∀ p ∈ longName, ∀ q ∈ longName, p.2 = q.2 → p = q := by decide +kernel
        have := hinj p hp q hq (by rw [hn, e.2])
        rw [← e.1, ← this]; exact hv
  · apply h3 k _ (by simp)
    intro f hm
    rw [tagAliases_eq, List.mem_map] at hm
    obtain ⟨p, hp, e⟩ := hm
    simp at e
    exact absurd e.2.symm (hk _)

theorem alias_nodup (d : Dict Key PyVal) (hd : d.keys.Nodup) : (add_aliases d tagAliases).2.keys.Nodup := by
  have key : ∀ (l : List (Key × Key)) (o : Objs Key PyVal), o.inDict.keys.Nodup → (aliasLoop false true o l).inDict.keys.Nodup := by
    intro l
    induction l with
    | nil => intro o h; exact h
    | cons p l ih =>
      obtain ⟨a, b⟩ := p
      intro o h
      rw [aliasLoop]
      cases hv : o.inDict.get? a with
      | none => exact ih o h
      | some v => exact ih _ (Dict.nodup_set _ _ _ h)
  exact key _ _ hd

theorem tagOf_short : ∀ p ∈ longName, tagOf p.1 = p.1 ∧ tagOf p.2 = p.1 := by decide +kernel

theorem tagOf_idem (name : Str) : tagOf (tagOf name) = tagOf name := by
  rcases (show tagOf name = name ∨ ∃ p ∈ longName, tagOf name = p.1 by
    unfold tagOf
    cases hf : longName.find? (·.2 = name) with
    | none => exact .inl rfl
    | some p => exact .inr ⟨p, List.mem_of_find?_eq_some hf, rfl⟩) with h | ⟨p, hp, h⟩
  · rw [h, h]
  · rw [h]; exact (tagOf_short p hp).1

theorem tagOf_other {name : Str} (h : name ∉ FLine.reserved) : tagOf name = name := by
  unfold tagOf
  cases hf : longName.find? (·.2 = name) with
  | none => rfl
  | some p =>
    have hp := List.mem_of_find?_eq_some hf
    have hn : p.2 = name := by simpa using List.find?_some hf
    exact absurd (hn ▸ long_reserved p hp) h

def rcKey : Str := py"reaction_coordinate"

theorem tagOf_rc {name : Str} : tagOf name = rcKey ↔ name = rcKey := by
  constructor
  · unfold tagOf
    cases hf : longName.find? (·.2 = name) with
    | none => exact id
    | some p =>
      have hp := List.mem_of_find?_eq_some hf
      have : ∀ p ∈ longName, p.1 ≠ rcKey := by decide +kernel
      intro h
      exact absurd h (this p hp)
  · rintro rfl; decide +kernel

/-- The entry of an atom. -/
structure IonSays (val : Numeral → F64) (ls : List FLine) (ion : Key) (e : Dict Key PyVal) : Prop where
  nodup : e.keys.Nodup
  tags : ∀ name, e.get? (.str name) = vecIn val ls ion (tagOf name)
  others : ∀ k, (∀ s, k ≠ .str s) → e.get? k = none

/-- The dictionary before the long names are added. -/
structure RawTs (val : Numeral → F64) (x : PyVal) (ls : List FLine) (d : Dict Key PyVal) : Prop where
  nodup : d.keys.Nodup
  coord : d.get? (.str rcKey) = some x
  tags : ∀ name, name ≠ rcKey → d.get? (.str name) = match rowsIn val ls name with | [] => none | rows => some (.list rows)
  ions : ∀ ion ∈ ionsIn ls, ∃ e : Dict Key PyVal, d.get? ion = some (.dict e) ∧ IonSays val ls ion e
  others : ∀ k, (∀ n, k ≠ .str n) → k ∉ ionsIn ls → d.get? k = none

theorem ion_set {val : Numeral → F64} {ls : List FLine} {g : Str} {name : AtomName} {gi idx : Str} {x y z : Str × Numeral} {gt g' tag tail : Str}
    (h : (FLine.atom g name gi idx x y z gt g' tag tail).Ok) {ion : Key} (hion : ion = .tup [.str name.text, .int (Numeral.nat idx)])
    {e : Dict Key PyVal} (he : IonSays val ls ion e) :
    IonSays val (ls ++ [.atom g name gi idx x y z gt g' tag tail]) ion
      (add_aliases (Dict.set e (.str tag) (.tuple [.float (val x.2), .float (val y.2), .float (val z.2)])) tagAliases).2 := by
  have hres : tag ∉ FLine.reserved := h.2.2.2.2.2.2.2.2.2.2.2.1
  obtain ⟨h1, h2, h3⟩ := he
  have hnd := Dict.nodup_set e (.str tag) (.tuple [.float (val x.2), .float (val y.2), .float (val z.2)]) h1
  obtain ⟨ha, hb⟩ := alias_again _ hnd (by
    intro p hp hn
    rw [Dict.get?_set] at hn ⊢
    by_cases ht : Key.str tag = .str p.1
    · rw [if_pos ht] at hn; cases hn
    · rw [if_neg ht] at hn
      rw [if_neg (by
        intro e; injection e with e; exact hres (e ▸ long_reserved p hp)), h2, (tagOf_short p hp).2]
      rw [h2, (tagOf_short p hp).1] at hn
      exact hn)
  refine ⟨alias_nodup _ hnd, fun n => ?_, fun k hk => ?_⟩
  · rw [ha, Dict.get?_set, vecIn_snoc]
    simp only [← hion, true_and]
    by_cases ht : tag = tagOf n
    · rw [if_pos (by rw [ht]), if_pos ht]
    · rw [if_neg (by simpa using ht), if_neg ht, h2, tagOf_idem]
  · rw [hb k hk, Dict.get?_set_ne _ _ _ _ (hk _), h3 k hk]

theorem raw_step {val : Numeral → F64} {x : PyVal} {ls : List FLine} {d : Dict Key PyVal} (h : RawTs val x ls d) (l : FLine)
    (hl : TsStruct.LineOk l) (hv : MdFrame.Reads val l.numerals) : ∃ d', step d l.text = .ok d' ∧ RawTs val x (ls ++ [l]) d' := by
  obtain ⟨hnd, hco, htags, hions, hoth⟩ := h
  obtain ⟨hok, -, hk⟩ := hl
  cases l with
  | blank ws => exact hk.elim
  | time g n tail => exact hk.elim
  | glob ns g g' tag tail =>
    have hne : tag ≠ rcKey := hk
    have key : MdGeom.appendTo d (.str tag) (.list (ns.map fun p => .float (val p.2)))
        = .ok (d.set (.str tag) (.list (rowsIn val ls tag ++ [.list (ns.map fun p => .float (val p.2))]))) := by
      rw [MdGeom.appendTo, htags tag hne]
      cases hr : rowsIn val ls tag with
      | nil => rfl
      | cons a l => rfl
    have hi : ionsIn (ls ++ [FLine.glob ns g g' tag tail]) = ionsIn ls := by rw [ionsIn_snoc]; simp [FLine.ion?]
    refine ⟨_, (step_glob d ns g g' tag tail hok hv).trans key, Dict.nodup_set _ _ _ hnd, ?_, ?_, ?_, ?_⟩
    · rw [Dict.get?_set_ne _ _ _ _ (by simpa using hne.symm)]; exact hco
    · intro name h1
      rw [rowsIn_snoc, Dict.get?_set]
      by_cases hn : tag = name
      · subst hn
        rw [if_pos rfl]
        simp only [if_true]
        split
        · rename_i h; simp at h
        · rfl
      · rw [if_neg (by simpa using hn), htags name h1]; simp [hn]
    · intro ion hm
      rw [hi] at hm
      obtain ⟨e, h1, h2⟩ := hions ion hm
      refine ⟨e, ?_, h2.1, fun n => ?_, h2.3⟩
      · have : ion ≠ .str tag := by
          obtain ⟨l, -, hl⟩ := List.mem_filterMap.1 hm
          cases l <;> simp [FLine.ion?] at hl
          rw [← hl]; simp
        rw [Dict.get?_set_ne _ _ _ _ this]; exact h1
      · rw [h2.2, vecIn_snoc]
    · intro k h1 h2
      rw [hi] at h2
      rw [Dict.get?_set_ne _ _ _ _ (h1 _)]; exact hoth k h1 h2
  | atom g name gi idx vx vy vz gt g' tag tail =>
    have hstep := step_atom (val := val) d g name gi idx vx vy vz gt g' tag tail hok hv
    obtain ⟨ion0, hk0⟩ : ∃ k, k = Key.tup [.str name.text, .int (Numeral.nat idx)] := ⟨_, rfl⟩
    rw [← hk0] at hstep
    have hns : ∀ n, ion0 ≠ .str n := by intro n; rw [hk0]; simp
    have hio : (FLine.atom g name gi idx vx vy vz gt g' tag tail).ion? = some ion0 := by rw [hk0]; rfl
    obtain ⟨e0, he0, hset⟩ : ∃ e0 : Dict Key PyVal, IonSays val ls ion0 e0 ∧
        setIon d ion0 (.str tag) (.tuple [.float (val vx.2), .float (val vy.2), .float (val vz.2)]) =
          .ok (d.set ion0 (.dict (add_aliases (Dict.set e0 (.str tag) (.tuple [.float (val vx.2), .float (val vy.2), .float (val vz.2)])) tagAliases).2)) := by
      by_cases hm : ion0 ∈ ionsIn ls
      · obtain ⟨e, h1, h2⟩ := hions ion0 hm
        refine ⟨e, h2, ?_⟩
        rw [setIon, h1]
      · refine ⟨[], ⟨by simp [Dict.keys], fun t => by rw [not_atom_vec hm]; rfl, fun _ _ => rfl⟩, ?_⟩
        rw [setIon, hoth ion0 hns hm]
    refine ⟨_, hstep.trans hset, Dict.nodup_set _ _ _ hnd, ?_, ?_, ?_, ?_⟩
    · rw [Dict.get?_set_ne _ _ _ _ (hns _).symm]; exact hco
    · intro n h1
      rw [Dict.get?_set_ne _ _ _ _ (hns _).symm, rowsIn_snoc]
      simpa using htags n h1
    · intro ion hi
      rw [ionsIn_snoc, hio] at hi
      by_cases he : ion = ion0
      · subst he
        exact ⟨_, Dict.get?_set_self _ _ _, ion_set hok hk0 he0⟩
      · obtain ⟨e, h1, h2⟩ := hions ion (by simpa [he] using hi)
        refine ⟨e, by rw [Dict.get?_set_ne _ _ _ _ he]; exact h1, h2.1, ?_, h2.3⟩
        intro t
        rw [h2.2, vecIn_snoc]
        simp only
        rw [← hk0, if_neg (by simp [Ne.symm he])]
    · intro k h1 h2
      rw [ionsIn_snoc, hio] at h2
      simp at h2
      rw [Dict.get?_set_ne _ _ _ _ h2.2]; exact hoth k h1 h2.1

theorem steps_snoc (curr : Dict Key PyVal) (l : List Str) (s : Str) :
    steps curr (l ++ [s]) = (steps curr l).bind fun c => step c s := by
  induction l generalizing curr with
  | nil =>
    show (step curr s >>= fun c => steps c []) = (Except.ok curr).bind _
    cases h : step curr s with
    | error e => simp [Except.bind, h]; rfl
    | ok c => simp [Except.bind, h]; rfl
  | cons a l ih =>
    show (step curr a >>= fun c => steps c (l ++ [s])) = (step curr a >>= fun c => steps c l).bind _
    cases step curr a with
    | error e => rfl
    | ok c => exact ih c

theorem raw_steps {val : Numeral → F64} {x : PyVal} (ls : List FLine) (hl : ∀ l ∈ ls, TsStruct.LineOk l) (hv : ∀ l ∈ ls, MdFrame.Reads val l.numerals) :
    ∃ d, steps [(.str rcKey, x)] (ls.map FLine.text) = .ok d ∧ RawTs val x ls d := by
  induction ls using List.reverseRecOn with
  | nil =>
    refine ⟨_, rfl, by simp [Dict.keys], by simp [Dict.get?], ?_, by simp [ionsIn], ?_⟩
    · intro name h
      show Dict.get? [(Key.str rcKey, x)] (.str name) = none
      rw [Dict.get?_eq_none]; simpa [Dict.keys] using h
    · intro k h _
      rw [Dict.get?_eq_none]; simpa [Dict.keys] using h _
  | append_singleton ls l ih =>
    obtain ⟨d, h1, h2⟩ := ih (fun x hx => hl x (by simp [hx])) (fun x hx => hv x (by simp [hx]))
    obtain ⟨d', h3, h4⟩ := raw_step h2 l (hl l (by simp)) (hv l (by simp))
    exact ⟨d', by rw [List.map_append, List.map_cons, List.map_nil, steps_snoc, h1]; exact h3, h4⟩

theorem raw_says {val : Numeral → F64} {s : TsStruct} {d : Dict Key PyVal} (hl : ∀ l ∈ s.lines, TsStruct.LineOk l)
    (h : RawTs val (.float (val s.coord)) s.lines d) : TsStruct.Says val s (add_aliases d tagAliases).2 := by
  obtain ⟨hnd, hco, htags, hions, hoth⟩ := h
  have hlong : ∀ p ∈ longName, p.2 ≠ rcKey := by decide +kernel
  obtain ⟨ha, hb⟩ := alias_again d hnd (by
    intro p hp _
    rw [htags p.2 (hlong p hp), rows_reserved (fun l hm => (hl l hm).1) (long_reserved p hp)])
  refine ⟨?_, ?_, ?_, ?_⟩
  · show (add_aliases d tagAliases).2.get? (.str rcKey) = _
    rw [ha, tagOf_rc.2 rfl, hco]
  · intro name h
    rw [ha, htags _ (fun e => h (tagOf_rc.1 e))]
    cases rowsIn val s.lines (tagOf name) <;> rfl
  · intro ion hm
    obtain ⟨e, h1, h2⟩ := hions ion hm
    refine ⟨e, ?_, h2.2, h2.3⟩
    have : ∀ n, ion ≠ .str n := by
      obtain ⟨l, -, hl⟩ := List.mem_filterMap.1 hm
      cases l <;> simp [FLine.ion?] at hl
      intro n; rw [← hl]; simp
    rw [hb ion this]; exact h1
  · intro k h1 h2
    rw [hb k h1]; exact hoth k h1 h2

/-! ### The title -/

abbrev markRe : Re := .group 1 (.alt (litRe (py"REA")) (.alt (litRe (py"PRO")) (litRe (py"TST"))))

theorem START_eq : START_RE.re = markRe := by decide +kernel
theorem TITLE_eq : TITLE_RE.re = .seq (star sp) (.seq markRe (.seq (star sp) (.seq (plus dig) (.seq (star sp) (LF 2))))) := by decide +kernel
theorem TITLE_names : TITLE_RE.names = [(py"type", 1), (py"reaction_coordinate", 2)] := by decide +kernel

theorem lang_mark {w : Str} : Lang markRe w ↔ ∃ k : TsKind, w = k.mark := by
  show (Lang (litRe (py"REA")) w ∨ Lang (litRe (py"PRO")) w ∨ Lang (litRe (py"TST")) w) ↔ _
  rw [lang_lit, lang_lit, lang_lit]
  constructor
  · rintro (h | h | h)
    · exact ⟨.reagent, h⟩
    · exact ⟨.product, h⟩
    · exact ⟨.test, h⟩
  · rintro ⟨k, rfl⟩
    cases k
    · exact .inl rfl
    · exact .inr (.inl rfl)
    · exact .inr (.inr rfl)

theorem markAt {r : Re} (k : TsKind) {s pre : Str} {caps C} (h : ∀ pre', Gets r pre' s ((1, k.mark) :: caps) C) :
    Gets (.seq markRe r) pre (k.mark ++ s) caps C := by
  obtain ⟨t, h5, h6⟩ := h (k.mark.reverse ++ pre)
  refine ⟨t, ?_, h6⟩
  rw [run_seq, run_group, run_alt, run_alt]
  have hu := upTo_append pre k.mark s caps caps
  cases k with
  | reagent =>
    rw [show TsKind.reagent.mark = py"REA" from rfl] at *
    rw [Tddft.run_litRe]
    dsimp only
    rw [hu, h5]; rfl
  | product =>
    rw [show TsKind.product.mark = py"PRO" from rfl] at *
    rw [Tddft.run_litRe (s := py"PRO")]
    dsimp only
    rw [hu, h5]; rfl
  | test =>
    rw [show TsKind.test.mark = py"TST" from rfl] at *
    rw [Tddft.run_litRe (s := py"TST")]
    dsimp only
    rw [hu, h5]; rfl

theorem found_start (l : Str) : found START_RE l = true ↔ TsPart.Marked l := by
  constructor
  · intro h
    obtain ⟨a, w, b, rfl, hl⟩ := Magres.found_lang h
    rw [START_eq, lang_mark] at hl
    obtain ⟨k, rfl⟩ := hl
    exact ⟨k, a, b, by simp⟩
  · rintro ⟨k, a, b, rfl⟩
    rw [found]
    rcases Pat.search_spec START_RE (a ++ k.mark ++ b) with ⟨-, h1⟩ | ⟨u, v, x, e, h1, -, -⟩
    · exfalso
      have h2 := h1 a (k.mark ++ b) (by simp)
      obtain ⟨t, ht, -⟩ := Gets.last (markAt (r := .eps) k (s := b) (pre := a.reverse) (caps := []) (C := fun _ => True) fun _ => Gets.eps trivial)
      rw [Pat.matchAt_eq, START_eq, ht] at h2
      cases h2
    · rw [h1]; rfl

theorem title_of {val : Numeral → F64} {s : TsStruct} {l : Str} (h : s.Title l) (hn : s.coord.Valid)
    (hv : parse_float_or_rational s.coord.text = .ok (val s.coord)) : title l = .ok (s.kind.key, .float (val s.coord)) := by
  obtain ⟨g0, g1, idx, g2, tail, rfl, h0, h1, hi, hi', h2, h2', ht⟩ := h
  have hm1 : ∀ k : TsKind, k.mark ≠ [] ∧ ∀ c ∈ k.mark, isSpace c = false := by intro k; cases k <;> decide
  have : Gets TITLE_RE.re [] (g0 ++ (s.kind.mark ++ (g1 ++ (idx ++ (g2 ++ (s.coord.text ++ tail)))))) []
      fun caps => caps = [(2, s.coord.text), (1, s.kind.mark)] := by
    rw [TITLE_eq]
    refine Tddft.gapAt h0 (stops_word (hm1 _).1 (hm1 _).2) fun pre _ => ?_
    refine markAt _ fun pre => ?_
    refine Tddft.gapAt h1 (stops_word hi' fun c hc => isDigit_not_space ((isDigit_iff c).2 (hi c hc))) fun pre _ => ?_
    refine Tddft.digitsAt hi hi' (Tddft.endsNumber_gap h2 h2') ?_
    have hl : ∀ st (k : St → Option St), run (.seq (star sp) (LF 2)) st k = run (.seq (star sp) (.seq (LF 2) .eps)) st k := by
      intro st k; simp
    refine Gets.congr hl ?_
    refine Tddft.gapNumAt h2 h2' hn ?_ fun pre => Gets.eps rfl
    cases tail with
    | nil => exact EndsNumber.nil
    | cons c tail => exact EndsNumber.space (ht c (by simp))
  obtain ⟨m, hm, hc, hn'⟩ := this.match_
  rw [TITLE_names] at hn'
  have e1 : m.named (py"type") = some s.kind.mark := by unfold Match.named Match.group; rw [hn', hc]; rfl
  have e2 : m.named (py"reaction_coordinate") = some s.coord.text := by unfold Match.named Match.group; rw [hn', hc]; rfl
  have e3 : Dict.get? TS_TYPES s.kind.mark = some s.kind.key := by cases s.kind <;> decide +kernel
  unfold title
  rw [hm]
  simp only [e1, e2, Option.getD_some, e3, optStr]
  rw [to_type_reads hv]
  rfl

/-- A line in which a mark stands elsewhere. -/
theorem title_none {p : Pat} {r : Re} (hp : p.re = .seq (star sp) (.seq markRe (.seq (star sp) (.seq (plus dig) r)))) {l : Str} (h : TsPart.Untitled l) :
    p.match_ l = none := by
  rw [Pat.match_]
  apply Cell.matchAt_none_of_lang hp
  intro w v e hl
  obtain ⟨g, w1, rfl, hg, mk, w2, rfl, hmk, g1, w3, rfl, hg1, idx, w4, rfl, hidx, -⟩ := hl
  obtain ⟨k, rfl⟩ := lang_mark.1 hmk
  have hg := ((lang_rep_set _ _ _ _ _).1 hg).1
  have hg1 := ((lang_rep_set _ _ _ _ _).1 hg1).1
  have hidx := (lang_rep_set _ _ _ _ _).1 hidx
  cases idx with
  | nil => have := hidx.2.1; simp at this
  | cons d idx =>
    refine h g g1 (idx ++ (w4 ++ v)) k d (by rw [e]; simp) (fun c hc => by have := hg c hc; rwa [has_sp] at this)
      (fun c hc => by have := hg1 c hc; rwa [has_sp] at this) ?_
    have := hidx.1 d (by simp)
    rw [has_dig] at this
    exact (isDigit_iff d).1 this

/-! ### Blocks -/

theorem fromReLoop_eof (endP : Str → Bool) (blk : List Str) (h : ∀ l ∈ blk, endP l = false) :
    ∀ (fuel : Nat) (data : List Str), blk.length < fuel → Block.fromReLoop endP 1 fuel 0 data blk = (false, data ++ blk, []) := by
  induction blk with
  | nil =>
    intro fuel data hf
    cases fuel with
    | zero => simp at hf
    | succ fuel => simp [Block.fromReLoop, LineSource.next]
  | cons x blk ih =>
    intro fuel data hf
    cases fuel with
    | zero => simp at hf
    | succ fuel =>
      rw [Block.fromReLoop]
      simp only [LineSource.next, h x (by simp), Bool.false_eq_true, if_false]
      rw [ih (fun l hl => h l (by simp [hl])) fuel _ (by simp at hf; omega)]
      simp

theorem tryBlock_eof (startP endP : Str → Bool) (line : Str) (blk : List Str) (hs : startP line = true) (hb : ∀ l ∈ blk, endP l = false)
    (ht : Str.strip line ≠ []) : tryBlock startP endP line blk true = .ok (some ⟨0, 0, line :: blk⟩, []) := by
  rw [tryBlock, Block.from_re, hs]
  simp only [Bool.not_true, Bool.false_eq_true, if_false]
  rw [fromReLoop_eof endP blk hb _ _ (by simp [LineSource.bound])]
  simp [Block.truthy, ht, Block.init]
  rfl

/-- With the end of the file as the end of a block, a block is always found. -/
theorem tryBlock_any (startP endP : Str → Bool) (line : Str) (rest : List Str) (hs : startP line = true) (ht : Str.strip line ≠ []) :
    ∃ b rest', tryBlock startP endP line rest true = .ok (some b, rest') := by
  by_cases h : ∀ l ∈ rest, endP l = false
  · exact ⟨_, _, tryBlock_eof startP endP line rest hs h ht⟩
  · obtain ⟨a, x, b, rfl, h1, h2⟩ : ∃ a x b, rest = a ++ x :: b ∧ (∀ l ∈ a, endP l = false) ∧ endP x = true := by
      induction rest with
      | nil => exact absurd (fun l hl => by cases hl) h
      | cons y rest ih =>
        cases hy : endP y with
        | true => exact ⟨[], y, rest, rfl, (fun l hl => by cases hl), hy⟩
        | false =>
          obtain ⟨a, x, b, e, h1, h2⟩ := ih (fun hh => h (by
            intro l hl
            rcases List.mem_cons.1 hl with rfl | hl
            · exact hy
            · exact hh l hl))
          exact ⟨y :: a, x, b, by rw [e]; rfl, (by
            intro l hl
            rcases List.mem_cons.1 hl with rfl | hl
            · exact hy
            · exact h1 l hl), h2⟩
    exact ⟨_, _, tryBlock_lines startP endP line a x b true hs h1 h2 ht⟩

theorem marked_strip {l : Str} (h : TsPart.Marked l) : Str.strip l ≠ [] := by
  obtain ⟨k, h⟩ := h
  cases k
  · exact strip_occurs h (c := 82) (by decide) (by decide)
  · exact strip_occurs h (c := 80) (by decide) (by decide)
  · exact strip_occurs h (c := 84) (by decide) (by decide)

theorem title_marked {s : TsStruct} {l : Str} (h : s.Title l) : TsPart.Marked l := by
  obtain ⟨g0, g1, idx, g2, tail, rfl, -⟩ := h
  exact ⟨s.kind, g0, g1 ++ (idx ++ (g2 ++ (s.coord.text ++ tail))), by simp⟩

theorem mem_numeral {n : Numeral} (hn : n.Valid) {c : Nat} (h : c ∈ n.text) : (48 ≤ c ∧ c ≤ 57) ∨ c = 43 ∨ c = 45 ∨ c = 46 ∨ c = 69 ∨ c = 101 := by
  obtain ⟨sg, ip, fr, ex⟩ := n
  obtain ⟨h1, h2, -, h4⟩ := hn
  have hs : ∀ sg, c ∈ Numeral.signText sg → c = 43 ∨ c = 45 := by
    intro sg; rcases sg with _ | _ | _ <;> simp [Numeral.signText]
    · exact .inl
    · exact .inr
  simp only [Numeral.text, List.mem_append] at h
  rcases h with ((h | h) | h) | h
  · rcases hs _ h with h | h <;> simp [h]
  · exact .inl (h1 c h)
  · cases fr with
    | none => simp [Numeral.fracText] at h
    | some ds =>
      simp only [Numeral.fracText, List.mem_cons] at h
      rcases h with rfl | h
      · simp
      · exact .inl (h2 c h)
  · cases ex with
    | none => simp [Numeral.expText] at h
    | some e =>
      obtain ⟨up, sg', ds⟩ := e
      have := (h4 _ rfl).1
      simp only [Numeral.expText, List.mem_append] at h
      rcases h with (h | h) | h
      · cases up <;> simp at h <;> simp [h]
      · rcases hs _ h with h | h <;> simp [h]
      · exact .inl (this c h)

theorem title_mem {s : TsStruct} {l : Str} (h : s.Title l) (hn : s.coord.Valid) {c : Nat} (hc : c ∈ l) :
    isSpace c = true ∨ c ∈ py"REAPROTST" ∨ (48 ≤ c ∧ c ≤ 57) ∨ c = 43 ∨ c = 45 ∨ c = 46 ∨ c = 69 ∨ c = 101 := by
  obtain ⟨g0, g1, idx, g2, tail, rfl, h0, h1, hi, hi', h2, h2', ht⟩ := h
  simp only [List.mem_append] at hc
  rcases hc with hc | hc | hc | hc | hc | hc | hc
  · exact .inl (h0 c hc)
  · right; left
    have : ∀ k : TsKind, ∀ c ∈ k.mark, c ∈ py"REAPROTST" := by intro k; cases k <;> decide
    exact this _ c hc
  · exact .inl (h1 c hc)
  · exact .inr (.inr (.inl (hi c hc)))
  · exact .inl (h2 c hc)
  · exact .inr (.inr (mem_numeral hn hc))
  · exact .inl (ht c hc)

theorem title_plain {s : TsStruct} {l : Str} (h : s.Title l) (hn : s.coord.Valid) : c!"<" ∉ l ∧ Str.contains (py"TSConfirmation") l = false := by
  constructor
  · intro hc
    have := title_mem h hn hc
    revert this; decide
  · rw [← Bool.not_eq_true, Str.contains_iff]
    rintro ⟨a, b, e⟩
    have := title_mem h hn (c := 102) (by rw [e]; simp)
    revert this; decide

theorem blank_plain {l : Str} (h : Blank l) : c!"<" ∉ l := no_lt_blank h

theorem line_nonblank {l : FLine} (h : TsStruct.LineOk l) : found EMPTY_RE l.text = false := by
  rw [← Bool.not_eq_true, Magres.empty_iff]
  refine not_blank_of_mem (c := 60) ?_ rfl
  obtain ⟨-, -, h⟩ := h
  cases l with
  | blank => exact h.elim
  | time => exact h.elim
  | glob ns g g' tag tail => simp [FLine.text]
  | atom => simp [FLine.text]

theorem numerals_valid {l : FLine} (h : l.Ok) : ∀ n ∈ l.numerals, n.Valid := by
  intro n hn
  cases l with
  | blank ws => simp [FLine.numerals] at hn
  | time g m t => simp [FLine.numerals] at hn; subst hn; exact h.2.1
  | glob ns g g' tag tail =>
    simp only [FLine.numerals, List.mem_map] at hn
    obtain ⟨p, hp, rfl⟩ := hn
    exact (h.1 p hp).2
  | atom g name gi idx x y z gt g' tag tail =>
    have hx := h.2.2.2.2.2.2.1
    simp only [FLine.numerals, List.mem_cons, List.not_mem_nil, or_false] at hn
    rcases hn with rfl | rfl | rfl
    · exact (hx x (by simp)).2.2
    · exact (hx y (by simp)).2.2
    · exact (hx z (by simp)).2.2

/-- One structure, with or without the blank line at its end. -/
theorem struct_of {val : Numeral → F64} (hr : ∀ n : Numeral, n.Valid → n.InRange → parse_float_or_rational n.text = .ok (val n)) {s : TsStruct} (hs : s.Ok)
    {t : Str} (ht : s.Title t) :
    ∃ d, (∀ e', (∀ l ∈ e', Blank l) → structure_ t ⟨0, 0, t :: (s.lines.map FLine.text ++ e')⟩ = .ok (s.kind.key, .dict d)) ∧ TsStruct.Says val s d := by
  obtain ⟨h1, h2, h3⟩ := hs
  obtain ⟨d, hd, hraw⟩ := raw_steps (val := val) (x := .float (val s.coord)) s.lines h3 (fun l hl n hn =>
    ⟨numerals_valid (h3 l hl).1 n hn, hr n (numerals_valid (h3 l hl).1 n hn) ((h3 l hl).2.1 n hn)⟩)
  refine ⟨_, fun e he => ?_, raw_says h3 hraw⟩
  have h4 : steps [(.str rcKey, .float (val s.coord))] (t :: (s.lines.map FLine.text ++ e)) = .ok d := by
    show (step _ t >>= fun c => steps c _) = _
    rw [step_plain _ t (title_plain ht h1).1]
    show steps _ (s.lines.map FLine.text ++ e) = _
    induction e using List.reverseRecOn with
    | nil => rw [List.append_nil]; exact hd
    | append_singleton e l ih =>
      rw [← List.append_assoc, steps_snoc, ih (fun x hx => he x (by simp [hx]))]
      exact step_plain _ _ (blank_plain (he l (by simp)))
  unfold structure_
  rw [title_of ht h1 (hr _ h1 h2)]
  show (steps [(.str rcKey, .float (val s.coord))] (t :: (s.lines.map FLine.text ++ e)) >>= _) = _
  rw [h4]
  rfl

/-! ### The file -/

set_option maxRecDepth 20000 in
theorem loop_cons (fuel : Nat) (line : Str) (rest : List Str) (accum : Dict Key PyVal) : loop (fuel + 1) (line :: rest) accum = (
    if Str.contains (py"TSConfirmation") line then
      loop fuel rest (accum.set (.str (py"confirmation")) (.bool true))
    else do
      match ← tryBlock (found START_RE) (found EMPTY_RE) line rest true with
      | (some b, rest) => do
        let (key, v) ← structure_ line b
        let accum ← MdGeom.appendTo accum (.str key) v
        loop fuel rest accum
      | (none, rest) => loop fuel rest accum) := rfl

attribute [local irreducible] structure_

theorem key_ne (k : TsKind) : Key.str k.key ≠ .str (py"confirmation") := by cases k <;> decide
theorem key_inj {j k : TsKind} (h : Key.str j.key = .str k.key) : j = k := by cases j <;> cases k <;> first | rfl | (exact absurd h (by decide))

theorem says_nil (val : Numeral → F64) : TsPart.Says val [] [] := ⟨rfl, fun _ => ⟨[], .nil, rfl⟩, fun _ _ _ => rfl⟩

theorem says_confirm {val : Numeral → F64} {parts : List TsPart} {d : Dict Key PyVal} (h : TsPart.Says val parts d) :
    TsPart.Says val (parts ++ [.confirm]) (d.set (.str (py"confirmation")) (.bool true)) := by
  refine ⟨?_, fun k => ?_, fun k h1 h2 => ?_⟩
  · rw [Dict.get?_set_self, if_pos (by simp [TsPart.isConfirm])]
  · obtain ⟨es, h1, h2⟩ := h.kinds k
    refine ⟨es, by simpa [List.filterMap_append, List.filterMap_cons, TsPart.ofKind] using h1, ?_⟩
    rw [Dict.get?_set_ne _ _ _ _ (key_ne k), h2]
  · rw [Dict.get?_set_ne _ _ _ _ h1]; exact h.others k h1 h2

theorem says_other {val : Numeral → F64} {parts : List TsPart} {d : Dict Key PyVal} (h : TsPart.Says val parts d) :
    TsPart.Says val (parts ++ [.other]) d := by
  refine ⟨?_, fun k => ?_, h.others⟩
  · rw [h.confirmation]; simp [TsPart.isConfirm]
  · obtain ⟨es, h1, h2⟩ := h.kinds k
    exact ⟨es, by simpa [List.filterMap_append, List.filterMap_cons, TsPart.ofKind] using h1, h2⟩

theorem says_struct {val : Numeral → F64} {parts : List TsPart} {d e : Dict Key PyVal} {s : TsStruct} (h : TsPart.Says val parts d)
    (hs : TsStruct.Says val s e) : ∃ d', MdGeom.appendTo d (.str s.kind.key) (.dict e) = .ok d' ∧ TsPart.Says val (parts ++ [.struct s]) d' := by
  obtain ⟨es, h1, h2⟩ := h.kinds s.kind
  have hd : MdGeom.appendTo d (.str s.kind.key) (.dict e) = .ok (d.set (.str s.kind.key) (.list (es.map PyVal.dict ++ [.dict e]))) := by
    rw [MdGeom.appendTo, h2]
    cases es with
    | nil => rfl
    | cons x es => rfl
  refine ⟨_, hd, ?_, fun k => ?_, fun k k1 k2 => ?_⟩
  · rw [Dict.get?_set_ne _ _ _ _ (key_ne _).symm, h.confirmation]; simp [TsPart.isConfirm]
  · by_cases hk : s.kind = k
    · subst hk
      refine ⟨es ++ [e], ?_, ?_⟩
      · rw [List.filterMap_append]
        refine List.rel_append h1 ?_
        simp only [List.filterMap_cons, TsPart.ofKind, if_true, List.filterMap_nil]
        exact .cons hs .nil
      · rw [Dict.get?_set_self, if_neg (by simp), List.map_append]; rfl
    · obtain ⟨es', h3, h4⟩ := h.kinds k
      refine ⟨es', ?_, ?_⟩
      · simpa [List.filterMap_append, TsPart.ofKind, List.filterMap_cons, hk] using h3
      · rw [Dict.get?_set_ne _ _ _ _ (fun e => hk (key_inj e).symm), h4]
  · rw [Dict.get?_set_ne _ _ _ _ (k2 _)]; exact h.others k k1 k2

theorem loop_parts {val : Numeral → F64} (hr : ∀ n : Numeral, n.Valid → n.InRange → parse_float_or_rational n.text = .ok (val n))
    (parts : List TsPart) (ls : List (List Str)) (h : List.Forall₂ TsPart.Lines parts ls) (hok : ∀ p ∈ parts, p.Ok) :
    ∀ (before : List TsPart) (info : Dict Key PyVal), TsPart.Says val before info → ∃ d, TsPart.Says val (before ++ parts) d ∧
      ∀ (rest : List Str) (fuel : Nat), (ls.flatten ++ rest).length < fuel →
        ∃ fuel', rest.length < fuel' ∧ loop fuel (ls.flatten ++ rest) info = loop fuel' rest d := by
  induction h with
  | nil =>
    intro before info hi
    exact ⟨info, by simpa using hi, fun rest fuel hf => ⟨fuel, by simpa using hf, rfl⟩⟩
  | @cons p l parts ls hp _ ih =>
    intro before info hi
    have ih := ih (fun q hq => hok q (by simp [hq]))
    have hokp := hok p (by simp)
    have hcons : before ++ p :: parts = before ++ [p] ++ parts := by simp
    rw [hcons]
    have hfl : ∀ rest, (l :: ls).flatten ++ rest = l ++ (ls.flatten ++ rest) := by intro rest; simp
    cases p with
    | confirm =>
      obtain ⟨x, rfl, hx⟩ := hp
      obtain ⟨d, h1, h2⟩ := ih _ _ (says_confirm hi)
      refine ⟨d, h1, fun rest fuel hf => ?_⟩
      rw [hfl] at hf ⊢
      cases fuel with
      | zero => simp at hf
      | succ fuel =>
        rw [List.singleton_append, loop_cons, if_pos ((Str.contains_iff _ _).2 hx)]
        exact h2 rest fuel (by simp at hf ⊢; omega)
    | other =>
      obtain ⟨x, rfl, hx, hm⟩ := hp
      obtain ⟨d, h1, h2⟩ := ih _ _ (says_other hi)
      refine ⟨d, h1, fun rest fuel hf => ?_⟩
      rw [hfl] at hf ⊢
      cases fuel with
      | zero => simp at hf
      | succ fuel =>
        rw [List.singleton_append, loop_cons, if_neg (fun e => hx ((Str.contains_iff _ _).1 e)), tryBlock_none _ _ _ _ _ (by
          rw [← Bool.not_eq_true, found_start]; exact hm)]
        exact h2 rest fuel (by simp at hf ⊢; omega)
    | struct s =>
      obtain ⟨t, last, rfl, ht, hl⟩ := hp
      obtain ⟨d, hd, hsays⟩ := struct_of hr hokp ht
      obtain ⟨d', hd', hsays'⟩ := says_struct hi hsays
      obtain ⟨d2, h1, h2⟩ := ih _ _ hsays'
      refine ⟨d2, h1, fun rest fuel hf => ?_⟩
      rw [hfl] at hf ⊢
      cases fuel with
      | zero => simp at hf
      | succ fuel =>
        have e1 : (t :: (s.lines.map FLine.text ++ [last])) ++ (ls.flatten ++ rest) = t :: (s.lines.map FLine.text ++ last :: (ls.flatten ++ rest)) := by simp
        rw [e1, loop_cons, if_neg (by rw [(title_plain ht hokp.1).2]; decide), tryBlock_lines _ _ _ _ _ _ _ ((found_start _).2 (title_marked ht)) (by
          intro l hl
          obtain ⟨f, hf, rfl⟩ := List.mem_map.1 hl
          exact line_nonblank (hokp.2.2 f hf)) ((Magres.empty_iff _).2 hl) (marked_strip (title_marked ht))]
        show ∃ fuel', _ ∧ (structure_ t _ >>= _) = _
        rw [hd [last] (by simpa using hl)]
        show ∃ fuel', _ ∧ (MdGeom.appendTo info (.str s.kind.key) (.dict d) >>= _) = _
        rw [hd']
        exact h2 rest fuel (by simp at hf ⊢; omega)

/-- A structure at the end of the file, with or without a blank line after it. -/
theorem loop_last {s : TsStruct} (hs : s.Ok) {t : Str} (ht : s.Title t) {d : Dict Key PyVal} {e : List Str} (he : e = [] ∨ ∃ last, e = [last] ∧ Blank last)
    (hd : structure_ t ⟨0, 0, t :: (s.lines.map FLine.text ++ e)⟩ = .ok (s.kind.key, .dict d)) (info : Dict Key PyVal) (fuel : Nat)
    (hf : (t :: (s.lines.map FLine.text ++ e)).length < fuel) :
    loop fuel (t :: (s.lines.map FLine.text ++ e)) info = MdGeom.appendTo info (.str s.kind.key) (.dict d) := by
  have hne : ∀ l ∈ s.lines.map FLine.text, found EMPTY_RE l = false := by
    intro l hl
    obtain ⟨f, hf, rfl⟩ := List.mem_map.1 hl
    exact line_nonblank (hs.2.2 f hf)
  have hm := (found_start _).2 (title_marked ht)
  have hst := marked_strip (title_marked ht)
  have hb : tryBlock (found START_RE) (found EMPTY_RE) t (s.lines.map FLine.text ++ e) true = .ok (some ⟨0, 0, t :: (s.lines.map FLine.text ++ e)⟩, []) := by
    rcases he with rfl | ⟨last, rfl, hl⟩
    · rw [List.append_nil]; exact tryBlock_eof _ _ _ _ hm hne hst
    · exact tryBlock_lines _ _ _ _ _ [] _ hm hne ((Magres.empty_iff _).2 hl) hst
  cases fuel with
  | zero => simp at hf
  | succ fuel =>
    rw [loop_cons, if_neg (by rw [(title_plain ht hs.1).2]; decide), hb]
    show (structure_ t _ >>= _) = _
    rw [hd]
    show (MdGeom.appendTo info (.str s.kind.key) (.dict d) >>= fun accum => loop fuel [] accum) = _
    cases fuel with
    | zero => simp at hf
    | succ fuel => cases MdGeom.appendTo info (.str s.kind.key) (.dict d) <;> rfl

/-- A line with a mark that is no title. -/
theorem loop_reject {l : Str} (h1 : ¬ Occurs (py"TSConfirmation") l) (h2 : TsPart.Marked l) (h3 : TsPart.Untitled l) (rest : List Str) (info : Dict Key PyVal)
    (fuel : Nat) : loop (fuel + 1) (l :: rest) info = .error .typeError := by
  obtain ⟨b, rest', hb⟩ := tryBlock_any (found START_RE) (found EMPTY_RE) l rest ((found_start _).2 h2) (marked_strip h2)
  rw [loop_cons, if_neg (fun e => h1 ((Str.contains_iff _ _).1 e)), hb]
  show (structure_ l b >>= _) = _
  have : structure_ l b = .error .typeError := by
    unfold structure_ title
    rw [title_none TITLE_eq h3]
    rfl
  rw [this]
  rfl

end Verif.Ts

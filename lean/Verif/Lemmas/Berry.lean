import Verif.Spec.Berry
import Verif.Lemmas.FinalConfig
import Verif.Lemmas.PspotReport
/-
The Berry phase polarisation.
-/
namespace Verif.Castep.BerryTab
open Verif Re NumRe AtomRe Spec Castep

/-! ### Patterns -/

abbrev wordsp : CSet := ⟨false, [.word, .space], false⟩
abbrev notClose : CSet := ⟨true, [.ch 41], false⟩
abbrev notColon : CSet := ⟨true, [.ch 58], false⟩
abbrev unitRe (i : Nat) : Re := .seq (.set (ch 40)) (.seq (.group i (plus notClose)) (.set (ch 41)))
abbrev namesRe : Re := .alt (litRe (py"Ionic")) (.alt (litRe (py"Elec")) (litRe (py"Total")))

theorem HEADER_eq : Res.POL_HEADER_RE.re = .seq .bol (.seq (star sp) (.seq (.group 1 (plus wordsp)) (.seq (star sp) (unitRe 2)))) := by decide +kernel
theorem HEADER_names : Res.POL_HEADER_RE.names = [(py"key", 1), (py"unit", 2)] := by decide +kernel
theorem TABLE_eq : Res.POL_TABLE_RE.re = .seq (star sp) (.seq (.group 1 namesRe) (.seq (plus notColon) (.seq (.set (ch 58)) (.seq (LF 2) (.seq (LF 3) (.seq (LF 4)
  (.seq (star sp) (unitRe 5)))))))) := by decide +kernel
theorem TABLE_names : Res.POL_TABLE_RE.names = [(py"key", 1), (py"a", 2), (py"b", 3), (py"c", 4), (py"unit", 5)] := by decide +kernel
theorem EQUALS_eq : EQUALS_RE.re = plus (ch 61) := by decide +kernel

theorem stops_equals : Stops1 (fun l => 61 ∈ l) (fun l => 61 ∉ l) EQUALS_RE := by
  constructor
  · intro l h
    obtain ⟨a, b, rfl⟩ := List.append_of_mem h
    refine Pat.search_of_ex_at (q := (61 :: a.reverse, b)) ?_
    rw [EQUALS_eq]
    exact Ex.plus (cs := ch 61) (w := [61]) (by simp [CSet.has, CItem.has]) (by simp)
  · intro l h
    cases hf : found EQUALS_RE l with
    | false => rfl
    | true =>
      obtain ⟨m, hm⟩ := Option.isSome_iff_exists.1 hf
      obtain ⟨a, b, e, hl⟩ := search_found hm
      rw [EQUALS_eq, lang_rep_set] at hl
      cases hw : m.whole with
      | nil => rw [hw] at hl; simp at hl
      | cons c w =>
        have := hl.1 c (by rw [hw]; simp)
        rw [has_ch] at this
        simp at this
        subst this
        exact absurd (by rw [e, hw]; simp) h

/-! ### Dictionaries -/

/-- The value of one key replaced. -/
def put (k : Key) (x : PyVal) (p : Key × PyVal) : Key × PyVal := if p.1 = k then (k, x) else p

theorem set_head (k : Key) (a b : PyVal) (d : Dict Key PyVal) : Dict.set ((k, a) :: d) k b = (k, b) :: d := by
  simp [Dict.set]

theorem put_fst (k : Key) (x : PyVal) (p : Key × PyVal) : (put k x p).1 = p.1 := by
  rw [put]; split <;> simp_all

theorem set_put (k : Key) (x : PyVal) (d : Dict Key PyVal) (a : Key) (b : PyVal) : (Dict.set d a b).map (put k x) = Dict.set (d.map (put k x)) (put k x (a, b)).1 (put k x (a, b)).2 := by
  rw [put_fst]
  induction d with
  | nil => simp only [Dict.set, List.map_cons, List.map_nil]; rw [show put k x (a, b) = ((put k x (a, b)).1, (put k x (a, b)).2) from rfl, put_fst]
  | cons p d ih =>
    obtain ⟨c, e⟩ := p
    by_cases h : c = a
    · subst h
      rw [set_head, List.map_cons, List.map_cons, show put k x (c, e) = ((put k x (c, e)).1, (put k x (c, e)).2) from rfl, put_fst, set_head]
      congr 1
      rw [show put k x (c, b) = ((put k x (c, b)).1, (put k x (c, b)).2) from rfl, put_fst]
    · rw [Internal.set_tail _ _ _ _ (fun e => h e.symm), List.map_cons, ih, List.map_cons, Internal.set_tail _ _ _ _ (by rw [put_fst]; exact fun e => h e.symm)]

theorem ofList_put (k : Key) (x : PyVal) (es : List (Key × PyVal)) : Dict.ofList (es.map (put k x)) = (Dict.ofList es).map (put k x) := by
  have key : ∀ r : List (Key × PyVal), Dict.ofList (r.reverse.map (put k x)) = (Dict.ofList r.reverse).map (put k x) := by
    intro r
    induction r with
    | nil => rfl
    | cons p r ih =>
      obtain ⟨a, b⟩ := p
      rw [List.reverse_cons, List.map_append, List.map_cons, List.map_nil, Params.ofList_snoc _ a b, set_put, ← ih]
      exact Params.ofList_snoc _ _ _
  have := key es.reverse
  rwa [List.reverse_reverse] at this

theorem set_map_put (k : Key) (x : PyVal) (d : Dict Key PyVal) (hn : (d.map Prod.fst).Nodup) : Dict.set (d.map (put k x)) k x = (Dict.set d k x) := by
  induction d with
  | nil => rfl
  | cons p d ih =>
    obtain ⟨c, e⟩ := p
    rw [List.map_cons, List.nodup_cons] at hn
    by_cases h : c = k
    · subst h
      rw [List.map_cons, show put c x (c, e) = (c, x) by simp [put], set_head, set_head]
      congr 1
      refine (List.map_congr_left fun p hp => ?_).trans (List.map_id _)
      rw [put, if_neg]
      · rfl
      · intro e2
        exact hn.1 (List.mem_map.2 ⟨p, hp, e2⟩)
    · rw [List.map_cons, show put k x (c, e) = (c, e) by simp [put, h], Internal.set_tail _ _ _ _ (fun e => h e.symm), Internal.set_tail _ _ _ _ (fun e => h e.symm), ih hn.2]

/-- A value put under a key, after which all earlier values of that key do not matter. -/
theorem ofList_retro (k : Key) (x : PyVal) (es es' : List (Key × PyVal)) (h : es.map (put k x) = es') :
    (Dict.ofList es).set k x = Dict.ofList (es' ++ [(k, x)]) := by
  rw [Params.ofList_snoc, ← h, ofList_put, set_map_put _ _ _ (Phonon.nodup_ofList es)]

theorem get_ofList (k : Key) (es : List (Key × PyVal)) : ((Dict.ofList es).get? k = none → k ∉ es.map Prod.fst) ∧ ∀ v, (Dict.ofList es).get? k = some v → (k, v) ∈ es := by
  have key : ∀ r : List (Key × PyVal), ((Dict.ofList r.reverse).get? k = none → k ∉ r.reverse.map Prod.fst) ∧ ∀ v, (Dict.ofList r.reverse).get? k = some v → (k, v) ∈ r.reverse := by
    intro r
    induction r with
    | nil => exact ⟨fun _ => by simp, fun v h => by cases h⟩
    | cons p r ih =>
      obtain ⟨a, b⟩ := p
      rw [List.reverse_cons, Params.ofList_snoc]
      by_cases h : k = a
      · subst h
        rw [Dict.get?_set_self]
        exact ⟨(fun h => by cases h), fun v h => by cases h; simp⟩
      · rw [Dict.get?_set_ne _ _ _ _ h]
        refine ⟨fun h1 => ?_, fun v h1 => by simp only [List.mem_append]; exact .inl (ih.2 v h1)⟩
        rw [List.map_append, List.mem_append]
        rintro (h2 | h2)
        · exact ih.1 h1 h2
        · simp at h2; exact h h2
  have := key es.reverse
  rwa [List.reverse_reverse] at this

/-- `setdefault` where all values of the key are the same. -/
theorem ensure_get {k : Key} {x : Dict Key PyVal} {es : List (Key × PyVal)} (h : ∀ p ∈ es, p.1 = k → p.2 = .dict x) (h0 : k ∉ es.map Prod.fst → x = []) :
    (ensure (Dict.ofList es) k).get? k = some (.dict x) ∧ ∀ y, (ensure (Dict.ofList es) k).set k y = (Dict.ofList es).set k y := by
  rw [ensure, mem_iff]
  cases hg : (Dict.ofList es).get? k with
  | none =>
    rw [if_neg (by simp), Dict.get?_set_self, h0 ((get_ofList k es).1 hg)]
    exact ⟨rfl, fun y => set_set _ _ _ _⟩
  | some v =>
    rw [if_pos (by simp), hg]
    have : v = .dict x := h _ ((get_ofList k es).2 v hg) rfl
    rw [this]
    exact ⟨rfl, fun _ => rfl⟩

/-! ### Titles and vectors -/

theorem hsp {g : Str} (hg : Blank g) : ∀ c ∈ g, sp.has c = true := fun x hx => by simpa [CSet.has, CItem.has] using hg x hx

/-- The unit. -/
theorem unitAt {i : Nat} {unit r pre : Str} {caps} {C : List (Nat × Str) → Prop} (hne : unit ≠ []) (hu : c!")" ∉ unit) (h : C ((i, unit) :: caps)) :
    Gets (unitRe i) pre (c!"(" :: (unit ++ c!")" :: r)) caps C := by
  refine Gets.char (by rw [has_ch]; simp) (Gets.run (fun d hd => ?_) hne (fun d hd => ?_) ?_)
  · simp [CSet.has, CItem.has]
    rintro rfl
    exact hu hd
  · simp at hd
    subst hd
    decide
  · refine ⟨⟨c!")" :: (unit.reverse ++ c!"(" :: pre), r, (i, unit) :: caps⟩, ?_, h⟩
    rw [run_set_cons, if_pos (by decide)]

theorem title_search {key unit t : Str} (h : BerryItem.Titled key unit t) : ∃ m name, Res.POL_HEADER_RE.search t = some m ∧ m.named (py"key") = some name ∧
    m.named (py"unit") = some unit ∧ normalise_key name = key ∧ ¬ Str.strip t = [] := by
  obtain ⟨g, c, name, r, rfl, hg, hc, hw, hk, hne, hu⟩ := h
  have hG : Gets Res.POL_HEADER_RE.re [] (g ++ ((c :: name) ++ c!"(" :: (unit ++ c!")" :: r))) [] (fun x => x = [(2, unit), (1, c :: name)]) := by
    rw [HEADER_eq]
    have hbol : ∀ {r : Re} {s : Str} {C}, Gets r [] s [] C → Gets (.seq .bol r) [] s [] C := by
      rintro r s C ⟨t, h1, h2⟩
      exact ⟨t, by rw [run_seq, run_bol]; exact h1, h2⟩
    refine hbol (Gets.stars (hsp hg) ?_ (Gets.run ?_ (by simp) ?_ ?_))
    · intro d hd
      simp at hd
      subst hd
      simp [CSet.has, CItem.has, hc]
    · intro d hd
      have := hw d hd
      simpa [CSet.has, CItem.has] using this
    · intro d hd
      simp at hd
      subst hd
      decide
    · exact Gets.stars (w := []) (by simp) (fun d hd => by simp at hd; subst hd; decide) (unitAt hne hu rfl)
  obtain ⟨m, h1, h2, h3⟩ := Gets.match_ hG
  rw [HEADER_names] at h3
  refine ⟨m, c :: name, ?_, by rw [named_eq h2 h3]; rfl, by rw [named_eq h2 h3]; rfl, LineTab.keyName hk, ?_⟩
  · rw [Pat.search_bol _ _ HEADER_eq]; exact h1
  · rw [strip_nil_iff]
    intro hb
    have := hb c (by simp)
    rw [hc] at this
    cases this

attribute [local irreducible] Res.POL_TABLE_RE Res.POL_HEADER_RE EQUALS_RE

theorem TABLE_paren {t : Str} (h : Lang Res.POL_TABLE_RE.re t) : Occurs (py"(") t :=
  lang_occurs (r := Res.POL_TABLE_RE.re) (w := py"(") (by decide +kernel) h
theorem HEADER_paren {t : Str} (h : Lang Res.POL_HEADER_RE.re t) : Occurs (py"(") t :=
  lang_occurs (r := Res.POL_HEADER_RE.re) (w := py"(") (by decide +kernel) h

set_option linter.constructorNameAsVariable false in
theorem vector_not {l : Str} (h : BerryItem.NoVector l) : Res.POL_TABLE_RE.search l = none := by
  cases hf : Res.POL_TABLE_RE.search l with
  | none => rfl
  | some m =>
    obtain ⟨a, b, e, hl⟩ := search_found hf
    rw [TABLE_eq] at hl
    obtain ⟨u, v, e1, -, w, x, rfl, hw, -⟩ := hl
    have occ : ∀ s : Str, w = s → Occurs s l := fun s hs => ⟨a ++ u, x ++ b, by rw [e, e1, hs]; simp⟩
    have hw : Lang (litRe (py"Ionic")) w ∨ Lang (litRe (py"Elec")) w ∨ Lang (litRe (py"Total")) w := hw
    rcases hw with hw | hw | hw
    · exact absurd (occ _ ((lang_lit _ _).1 hw)) h.1
    · exact absurd (occ _ ((lang_lit _ _).1 hw)) h.2.1
    · exact absurd (occ _ ((lang_lit _ _).1 hw)) h.2.2

set_option linter.constructorNameAsVariable false in
theorem no_paren {l : Str} (h : c!"(" ∉ l) : Res.POL_TABLE_RE.search l = none ∧ found Res.POL_HEADER_RE l = false := by
  constructor
  · cases hf : Res.POL_TABLE_RE.search l with
    | none => rfl
    | some m =>
      obtain ⟨a, b, e, hl⟩ := search_found hf
      obtain ⟨u, v, e2⟩ := TABLE_paren hl
      exact absurd (by rw [e, e2]; simp) h
  · cases hf : found Res.POL_HEADER_RE l with
    | false => rfl
    | true =>
      obtain ⟨m, hm⟩ := Option.isSome_iff_exists.1 hf
      obtain ⟨a, b, e, hl⟩ := search_found hm
      obtain ⟨u, v, e2⟩ := HEADER_paren hl
      exact absurd (by rw [e, e2]; simp) h

theorem nameAt {r : Re} {name s pre : Str} {caps C} (hm : name ∈ [py"Ionic", py"Elec", py"Total"]) (h : Gets r (name.reverse ++ pre) s ((1, name) :: caps) C) :
    Gets (.seq (.group 1 namesRe) r) pre (name ++ s) caps C := by
  obtain ⟨t, h5, h6⟩ := h
  refine ⟨t, ?_, h6⟩
  simp only [List.mem_cons, List.not_mem_nil, or_false] at hm
  rw [run_seq, run_group]
  rcases hm with rfl | rfl | rfl <;>
  · simp only [List.reverse_cons, List.reverse_nil, List.nil_append, List.cons_append] at h5
    simp [run_seq, run_alt, namesRe, litRe, run_set_cons, CSet.has, CItem.has, St.upTo]
    simp only [Nat.add_assoc, Nat.add_sub_cancel_left]
    exact h5

theorem vector_search {name unit m g g1 g2 g3 g4 r : Str} {a b c : Numeral} (hn : name ∈ [py"Ionic", py"Elec", py"Total"]) (hm : m ≠ []) (hm2 : c!":" ∉ m) (hg : Blank g)
    (hgs : ∀ g ∈ [g1, g2, g3, g4], Blank g ∧ g ≠ []) (hu : unit ≠ []) (hu2 : c!")" ∉ unit) (hv : ∀ n ∈ [a, b, c], n.Valid) :
    ∃ mt, Res.POL_TABLE_RE.search (g ++ (name ++ (m ++ c!":" :: (g1 ++ (a.text ++ (g2 ++ (b.text ++ (g3 ++ (c.text ++
      (g4 ++ c!"(" :: (unit ++ c!")" :: r))))))))))) = some mt ∧ mt.caps = [(5, unit), (4, c.text), (3, b.text), (2, a.text), (1, name)] ∧ mt.names = Res.POL_TABLE_RE.names := by
  have ends : ∀ {g s : Str}, Blank g ∧ g ≠ [] → EndsNumber (g ++ s) := by
    rintro g s ⟨h1, h2⟩
    cases g with
    | nil => exact absurd rfl h2
    | cons c g => exact .space (h1 c (by simp))
  have h1 := hgs g1 (by simp)
  have h2 := hgs g2 (by simp)
  have h3 := hgs g3 (by simp)
  have h4 := hgs g4 (by simp)
  have hG : Gets Res.POL_TABLE_RE.re [] (g ++ (name ++ (m ++ c!":" :: (g1 ++ (a.text ++ (g2 ++ (b.text ++ (g3 ++ (c.text ++
      (g4 ++ c!"(" :: (unit ++ c!")" :: r))))))))))) [] (fun x => x = [(5, unit), (4, c.text), (3, b.text), (2, a.text), (1, name)]) := by
    rw [TABLE_eq]
    refine Gets.stars (hsp hg) ?_ (nameAt hn (Gets.pluses ?_ hm ?_ (Gets.char (by rw [has_ch]; simp) (Gets.lfAt h1.1 h1.2 (hv a (by simp)) (ends h2) (Gets.lfAt h2.1 h2.2 (hv b (by simp)) (ends h3)
      (Gets.lfAt h3.1 h3.2 (hv c (by simp)) (ends h4) (Gets.stars (hsp h4.1) ?_ (unitAt hu hu2 rfl))))))))
    · intro d hd
      simp only [List.mem_cons, List.not_mem_nil, or_false] at hn
      rcases hn with rfl | rfl | rfl <;> (simp at hd; subst hd; decide)
    · intro d hd
      simp [CSet.has, CItem.has]
      rintro rfl
      exact hm2 hd
    · intro d hd
      simp at hd
      subst hd
      decide
    · intro d hd
      simp at hd
      subst hd
      decide
  obtain ⟨mt, e1, e2, e3⟩ := Gets.match_ hG
  exact ⟨mt, search_of_match e1, e2, e3⟩

/-! ### Rows -/

theorem rows_fold {rd : Numeral → F64} (hrd : ∀ n : Numeral, n.Valid → n.InRange → parse_float_or_rational n.text = .ok (rd n)) {rows : List BerryRow} {b : List Str}
    (h : List.Forall₂ BerryRow.Line rows b) : (∀ r ∈ rows, r.Ok) → ∀ es : List (Key × PyVal), foldLines polRow (Dict.ofList es) b = .ok (Dict.ofList (es ++ rows.map (BerryRow.entry rd))) := by
  induction h with
  | nil => intro _ es; rw [List.map_nil, List.append_nil]; rfl
  | @cons r l rows b hl _ ih =>
    intro hok es
    obtain ⟨⟨ws, hw⟩, hn, -⟩ := hl
    have hr := hok r (by simp)
    have e : polRow (Dict.ofList es) l = .ok (Dict.ofList (es ++ [BerryRow.entry rd r])) := by
      rw [polRow, numbersOf_of hn (fun n hm => (hr n hm).1) fun n hm => hrd n (hr n hm).1 (hr n hm).2, (fields_iff _ _).1 hw, BerryRow.entry, Params.ofList_snoc]
      rfl
    rw [foldLines_cons _ _ _ _ _ e, ih (fun r hr => hok r (by simp [hr]))]
    simp

theorem quanta_fold {rd : Numeral → F64} (hrd : ∀ n : Numeral, n.Valid → n.InRange → parse_float_or_rational n.text = .ok (rd n)) {m : Match} {unit : Str}
    (hu : m.named (py"unit") = some unit) {rows : List QuantumRow} {b : List Str}
    (h : List.Forall₂ QuantumRow.Line rows b) : (∀ r ∈ rows, r.Ok) → ∀ es : List (Key × PyVal),
      foldLines (polQuantum m) (Dict.ofList es) b = .ok (Dict.ofList (es ++ rows.map (QuantumRow.entry rd unit))) := by
  induction h with
  | nil => intro _ es; rw [List.map_nil, List.append_nil]; rfl
  | @cons r l rows b hl _ ih =>
    intro hok es
    have hr := hok r (by simp)
    have e : polQuantum m (Dict.ofList es) l = .ok (Dict.ofList (es ++ [QuantumRow.entry rd unit r])) := by
      rw [polQuantum, numbersOf_of hl.1 (fun n hm => (hr n hm).1) fun n hm => hrd n (hr n hm).1 (hr n hm).2, QuantumRow.entry, Params.ofList_snoc]
      simp only [Delta.ok_bind, elems, QuantumRow.nums, List.map_cons, List.map_append, List.map_nil, List.drop_one, List.tail_cons, List.reverse_append, List.reverse_cons,
        List.reverse_nil, List.nil_append, List.cons_append, List.reverse_reverse, List.map_map, unitOf, hu, optStr]
      rfl
    rw [foldLines_cons _ _ _ _ _ e, ih (fun r hr => hok r (by simp [hr]))]
    simp

theorem toFloats {rd : Numeral → F64} {ns : List Numeral} (h : ∀ n ∈ ns, parse_float_or_rational n.text = .ok (rd n)) :
    to_type .float (strList (ns.map Numeral.text)) = .ok (.tuple (ns.map fun n => .float (rd n))) :=
  to_type_strList .float ns (fun n => n.text) (fun n => .float (rd n)) fun n hn => typeParser_float (h n hn)

theorem ions_fold {rd : Numeral → F64} (hrd : ∀ n : Numeral, n.Valid → n.InRange → parse_float_or_rational n.text = .ok (rd n)) {rows : List PolIonRow} {b : List Str}
    (h : List.Forall₂ PolIonRow.Line rows b) : (∀ r ∈ rows, r.Ok) → ∀ es : List (Key × PyVal), foldLines polIon (Dict.ofList es) b = .ok (Dict.ofList (es ++ rows.map (PolIonRow.entry rd))) := by
  induction h with
  | nil => intro _ es; rw [List.map_nil, List.append_nil]; rfl
  | @cons r l rows b hl _ ih =>
    intro hok es
    obtain ⟨hr, hd⟩ := hok r (by simp)
    have hrd' : ∀ n ∈ r.nums, parse_float_or_rational n.text = .ok (rd n) := fun n hn => hrd n (hr n hn).1 (hr n hn).2
    have e1 := toFloats (ns := [r.coords.1, r.coords.2.1, r.coords.2.2]) fun n hn => hrd' n (by rw [PolIonRow.nums]; exact List.mem_append_left _ hn)
    have e2 := toFloats (ns := r.pol) fun n hn => hrd' n (by rw [PolIonRow.nums]; exact List.mem_append_right _ hn)
    have e : polIon (Dict.ofList es) l = .ok (Dict.ofList (es ++ [PolIonRow.entry rd r])) := by
      rw [polIon, (fields_iff _ _).1 hl.1, PolIonRow.entry, Params.ofList_snoc]
      simp only [PolIonRow.nums, List.map_append, List.map_cons, List.map_nil, List.cons_append, List.nil_append] at e1 e2 ⊢
      rw [PspotRep.pyInt_digits (s := r.species) ⟨(hd _ (by simp)).2, (hd _ (by simp)).1⟩, PspotRep.pyInt_digits (s := r.index) ⟨(hd _ (by simp)).2, (hd _ (by simp)).1⟩]
      simp only [Delta.ok_bind]
      rw [e1]
      simp only [Delta.ok_bind]
      rw [e2]
      rfl
    rw [foldLines_cons _ _ _ _ _ e, ih (fun r hr => hok r (by simp [hr]))]
    simp

/-! ### The dictionaries of the items so far -/

def val (rd : Numeral → F64) (phase : Bool) (items : List BerryItem) : Dict Key PyVal := Dict.ofList (items.flatMap (BerryItem.rowsOf rd phase))
def polEs (rd : Numeral → F64) (items : List BerryItem) : List (Key × PyVal) := items.flatMap (BerryItem.polEntries rd (val rd false items) (val rd true items))
def pol (rd : Numeral → F64) (items : List BerryItem) : Dict Key PyVal := Dict.ofList (polEs rd items)
def all (rd : Numeral → F64) (items : List BerryItem) : Dict Key PyVal := Dict.ofList (items.filterMap (BerryItem.entry rd (pol rd items)))

theorem put_phase (rd : Numeral → F64) (v p p' : Dict Key PyVal) (items : List BerryItem) :
    (items.flatMap (BerryItem.polEntries rd v p)).map (put (.str (py"phase")) (.dict p')) = items.flatMap (BerryItem.polEntries rd v p') := by
  rw [List.map_flatMap]
  refine List.flatMap_congr fun i _ => ?_
  cases i with
  | table unit rows =>
    by_cases h : unit = py"phase"
    · simp [BerryItem.polEntries, h, put]
    · simp [BerryItem.polEntries, h, put]
  | quanta unit rows =>
    simp [BerryItem.polEntries, List.map_map, Function.comp_def, QuantumRow.entry, put]
  | _ => rfl

theorem put_val (rd : Numeral → F64) (v p v' : Dict Key PyVal) (items : List BerryItem) :
    (items.flatMap (BerryItem.polEntries rd v p)).map (put (.str (py"val")) (.dict v')) = items.flatMap (BerryItem.polEntries rd v' p) := by
  rw [List.map_flatMap]
  refine List.flatMap_congr fun i _ => ?_
  cases i with
  | table unit rows =>
    by_cases h : unit = py"phase"
    · simp [BerryItem.polEntries, h, put]
    · simp [BerryItem.polEntries, h, put]
  | quanta unit rows =>
    simp [BerryItem.polEntries, List.map_map, Function.comp_def, QuantumRow.entry, put]
  | _ => rfl

theorem vector_key {name : Str} (h : name ∈ [py"Ionic", py"Elec", py"Total"]) : normalise_key name = name.map lowerC ∧ name.map lowerC ≠ py"polarisation" := by
  simp only [List.mem_cons, List.not_mem_nil, or_false] at h
  rcases h with rfl | rfl | rfl <;> exact ⟨by decide +kernel, by decide +kernel⟩

theorem put_pol (rd : Numeral → F64) (q q' : Dict Key PyVal) {items : List BerryItem} (hok : ∀ i ∈ items, i.Ok) :
    (items.filterMap (BerryItem.entry rd q)).map (put (.str (py"polarisation")) (.dict q')) = items.filterMap (BerryItem.entry rd q') := by
  rw [List.map_filterMap]
  refine List.filterMap_congr fun i hi => ?_
  cases i with
  | vector name unit a b c =>
    have := (vector_key (hok _ hi).1).2
    simp only [BerryItem.entry, Option.map_some, put]
    rw [if_neg (by simpa using this)]
  | table | quanta => simp [BerryItem.entry, put]
  | volume | ions => simp [BerryItem.entry, put]
  | other => rfl

theorem val_same {rd : Numeral → F64} {items : List BerryItem} {i : BerryItem} {ph : Bool} (h : BerryItem.rowsOf rd ph i = []) : val rd ph (items ++ [i]) = val rd ph items := by
  simp [val, List.flatMap_append, h]

theorem pol_same {rd : Numeral → F64} {items : List BerryItem} {i : BerryItem} (h1 : ∀ ph, BerryItem.rowsOf rd ph i = []) (h2 : ∀ v p, BerryItem.polEntries rd v p i = []) :
    pol rd (items ++ [i]) = pol rd items := by
  rw [pol, polEs, val_same (h1 _), val_same (h1 _), List.flatMap_append, pol, polEs]
  simp [h2]

/-- An item that has nothing to do with the polarisation. -/
theorem all_set {rd : Numeral → F64} {items : List BerryItem} {i : BerryItem} (h1 : ∀ ph, BerryItem.rowsOf rd ph i = []) (h2 : ∀ v p, BerryItem.polEntries rd v p i = [])
    {k : Key} {x : PyVal} (h3 : ∀ q, BerryItem.entry rd q i = some (k, x)) : (all rd items).set k x = all rd (items ++ [i]) := by
  rw [all, all, pol_same h1 h2, List.filterMap_append]
  simp only [List.filterMap_cons, h3, List.filterMap_nil]
  rw [Params.ofList_snoc]

/-- An item of the polarisation. -/
theorem all_pol {rd : Numeral → F64} {items : List BerryItem} {i : BerryItem} (hok : ∀ i ∈ items, i.Ok) (h3 : ∀ q, BerryItem.entry rd q i = some (.str (py"polarisation"), .dict q)) :
    (all rd items).set (.str (py"polarisation")) (.dict (pol rd (items ++ [i]))) = all rd (items ++ [i]) := by
  rw [all, ofList_retro _ _ _ _ (put_pol rd _ _ hok), all, List.filterMap_append]
  simp only [List.filterMap_cons, h3, List.filterMap_nil]

theorem ensure_pol {rd : Numeral → F64} {items : List BerryItem} (hok : ∀ i ∈ items, i.Ok) :
    (ensure (all rd items) (.str (py"polarisation"))).get? (.str (py"polarisation")) = some (.dict (pol rd items)) ∧
      ∀ y, (ensure (all rd items) (.str (py"polarisation"))).set (.str (py"polarisation")) y = (all rd items).set (.str (py"polarisation")) y := by
  refine ensure_get (fun p hp he => ?_) (fun h => ?_)
  · obtain ⟨i, hi, e⟩ := List.mem_filterMap.1 hp
    cases i with
    | vector name unit a b c =>
      have := (vector_key (hok _ hi).1).2
      simp only [BerryItem.entry, Option.some.injEq] at e
      subst e
      simp at he
      exact absurd he this
    | table | quanta => simp only [BerryItem.entry, Option.some.injEq] at e; subst e; rfl
    | volume | ions => simp only [BerryItem.entry, Option.some.injEq] at e; subst e; simp at he
    | other => cases e
  · have : polEs rd items = [] := by
      rw [polEs, List.flatMap_eq_nil_iff]
      intro i hi
      cases i with
      | table unit rows => refine absurd ?_ h; exact List.mem_map.2 ⟨(.str (py"polarisation"), .dict (pol rd items)), List.mem_filterMap.2 ⟨_, hi, rfl⟩, rfl⟩
      | quanta unit rows => refine absurd ?_ h; exact List.mem_map.2 ⟨(.str (py"polarisation"), .dict (pol rd items)), List.mem_filterMap.2 ⟨_, hi, rfl⟩, rfl⟩
      | _ => rfl
    rw [pol, this]; rfl

theorem block_cut {stop pass : Str → Prop} {s : Str → Bool} {e : Pat} {eof : Bool} (he : Stops1 stop pass e) {n : Nat} {t : Str} {b : List Str} (ht : s t = true)
    (hb : Cut stop pass n b) (hne : ¬ Str.strip t = []) (rest : List Str) :
    blockOf s (found e) n eof t (b ++ rest) = .ok (some (t :: b), rest) := by
  rw [blockOf, Block.from_re, ht]
  have := fromReLoop_cut he.1 he.2 hb rest n 0 (LineSource.bound (b ++ rest) + 1) [t] (by simp) (by simp [LineSource.bound]; omega)
  simp only [Bool.not_true, Bool.false_eq_true, if_false, this]
  simp [Block.truthy]
  exact fun h => absurd h hne

theorem cut_rows {b : List Str} {r : Str} (hb : ∀ l ∈ b, (61 : Nat) ∉ l) (hr : (61 : Nat) ∈ r) : Cut (fun l => 61 ∈ l) (fun l => 61 ∉ l) 1 (b ++ [r]) := by
  induction b with
  | nil => exact .last hr
  | cons l b ih => exact .other (hb l (by simp)) (ih fun l hl => hb l (by simp [hl]))

theorem forall_right {α : Type} {R : α → Str → Prop} {P : Str → Prop} (h : ∀ a l, R a l → P l) {xs : List α} {b : List Str} (hb : List.Forall₂ R xs b) : ∀ l ∈ b, P l := by
  induction hb with
  | nil => intro l hl; cases hl
  | cons h1 _ ih =>
    intro l hl
    rcases List.mem_cons.1 hl with rfl | hl
    · exact h _ _ h1
    · exact ih l hl

theorem contains_not {w l : Str} (h : ¬ Occurs w l) : ¬ Str.contains w l = true := fun e => h ((Str.contains_iff _ _).1 e)

theorem slice2 {t r1 r2 : Str} {b : List Str} : Block.sliceBounds (t :: r1 :: (b ++ [r2])) 2 1 = b := by
  rw [Block.sliceBounds, if_neg (by decide)]
  simp

/-- The entries of the polarisation under a key are the table of that key. -/
theorem es_sub {rd : Numeral → F64} (items : List BerryItem) (ph : Bool) : (∀ p ∈ polEs rd items, p.1 = .str (if ph then py"phase" else py"val") → p.2 = .dict (val rd ph items)) ∧
    ((Key.str (if ph then py"phase" else py"val")) ∉ (polEs rd items).map Prod.fst → val rd ph items = []) := by
  constructor
  · intro p hp he
    obtain ⟨i, hi, hp⟩ := List.mem_flatMap.1 hp
    cases i with
    | table unit rows =>
      by_cases h : unit = py"phase"
      · simp only [BerryItem.polEntries, if_pos h, List.mem_singleton] at hp
        subst hp
        cases ph with
        | true => rfl
        | false => simp at he
      · simp only [BerryItem.polEntries, if_neg h, List.mem_cons, List.not_mem_nil, or_false] at hp
        rcases hp with rfl | rfl
        · cases ph <;> simp at he
        · cases ph with
          | false => rfl
          | true => simp at he
    | quanta unit rows =>
      obtain ⟨r, -, rfl⟩ := List.mem_map.1 hp
      simp [QuantumRow.entry] at he
    | _ => cases hp
  · intro h
    have : items.flatMap (BerryItem.rowsOf rd ph) = [] := by
      rw [List.flatMap_eq_nil_iff]
      intro i hi
      cases i with
      | table unit rows =>
        rw [BerryItem.rowsOf, if_neg]
        intro hd
        refine absurd ?_ h
        refine List.mem_map.2 ⟨(.str (if ph then py"phase" else py"val"), .dict (val rd ph items)), List.mem_flatMap.2 ⟨_, hi, ?_⟩, rfl⟩
        cases ph with
        | true => simp at hd; simp [BerryItem.polEntries, hd]
        | false => simp at hd; simp [BerryItem.polEntries, hd]
      | _ => rfl
    rw [val, this]; rfl

theorem ordinary {rd : Numeral → F64} (hrd : ∀ n : Numeral, n.Valid → n.InRange → parse_float_or_rational n.text = .ok (rd n)) {m : Match} {unit : Str}
    (hu : m.named (py"unit") = some unit) {rows : List BerryRow} {b : List Str} (h : List.Forall₂ BerryRow.Line rows b) (hr : ∀ r ∈ rows, r.Ok) (items : List BerryItem) :
    polOrdinary m b (pol rd items) = .ok (pol rd (items ++ [.table unit rows])) := by
  rw [polOrdinary, hu]
  by_cases hp : unit = py"phase"
  · have e1 : val rd false (items ++ [.table unit rows]) = val rd false items := val_same (by simp [BerryItem.rowsOf, hp])
    have e2 : val rd true (items ++ [.table unit rows]) = Dict.ofList (items.flatMap (BerryItem.rowsOf rd true) ++ rows.map (BerryRow.entry rd)) := by
      simp [val, List.flatMap_append, BerryItem.rowsOf, hp]
    have e3 : polEs rd (items ++ [.table unit rows]) = items.flatMap (BerryItem.polEntries rd (val rd false items) (val rd true (items ++ [.table unit rows]))) ++
        [(.str (py"phase"), .dict (val rd true (items ++ [.table unit rows])))] := by
      rw [polEs, e1, List.flatMap_append]
      simp [BerryItem.polEntries, hp]
    obtain ⟨g1, g2⟩ := ensure_get (k := .str (py"phase")) (x := val rd true items) (es := polEs rd items) (es_sub items true).1 (es_sub items true).2
    have f := rows_fold hrd h hr (items.flatMap (BerryItem.rowsOf rd true))
    rw [← e2] at f
    simp only [hp, decide_true, if_true]
    rw [pol, g1]
    simp only []
    rw [val, f]
    simp only [Delta.ok_bind]
    rw [g2, ofList_retro _ _ _ (items.flatMap (BerryItem.polEntries rd (val rd false items) (val rd true (items ++ [.table unit rows])))) (by rw [polEs, put_phase]), ← e3, hp]
    rfl
  · have e1 : val rd true (items ++ [.table unit rows]) = val rd true items := val_same (by simp [BerryItem.rowsOf, hp])
    have e2 : val rd false (items ++ [.table unit rows]) = Dict.ofList (items.flatMap (BerryItem.rowsOf rd false) ++ rows.map (BerryRow.entry rd)) := by
      simp [val, List.flatMap_append, BerryItem.rowsOf, hp]
    have e3 : polEs rd (items ++ [.table unit rows]) = (items.flatMap (BerryItem.polEntries rd (val rd false (items ++ [.table unit rows])) (val rd true items)) ++
        [(.str (py"units"), .str unit)]) ++ [(.str (py"val"), .dict (val rd false (items ++ [.table unit rows])))] := by
      rw [polEs, e1, List.flatMap_append]
      simp [BerryItem.polEntries, hp]
    obtain ⟨g1, g2⟩ := ensure_get (k := .str (py"val")) (x := val rd false items) (es := polEs rd items ++ [(.str (py"units"), .str unit)])
      (fun p hm he => by
        rcases List.mem_append.1 hm with hm | hm
        · exact (es_sub items false).1 p hm he
        · simp at hm; subst hm; simp at he)
      (fun hm => (es_sub items false).2 fun hx => hm (by rw [List.map_append]; exact List.mem_append_left _ hx))
    have f := rows_fold hrd h hr (items.flatMap (BerryItem.rowsOf rd false))
    rw [← e2] at f
    simp only [Option.some.injEq, hp, decide_false, Bool.false_eq_true, if_false, unitOf, hu, optStr]
    rw [pol, ← Params.ofList_snoc, g1]
    simp only []
    rw [val, f]
    simp only [Delta.ok_bind]
    rw [g2, ofList_retro _ _ _ (items.flatMap (BerryItem.polEntries rd (val rd false (items ++ [.table unit rows])) (val rd true items)) ++ [(.str (py"units"), .str unit)])
      (by rw [List.map_append, polEs, put_val]; rfl), ← e3]
    rfl

theorem line_ions {rd : Numeral → F64} (hrd : ∀ n : Numeral, n.Valid → n.InRange → parse_float_or_rational n.text = .ok (rd n)) {unit : Str} {rows : List PolIonRow} {total : List Numeral}
    {ls : List Str} (h : (BerryItem.ions unit rows total).Lines ls) (hok : (BerryItem.ions unit rows total).Ok) (items : List BerryItem) (rest : List Str) :
    ∃ l tl, ls = l :: tl ∧ berryLine l (tl ++ rest) (all rd items) = .ok (all rd (items ++ [.ions unit rows total]), rest) := by
  obtain ⟨t, r1, hd, b, tl, r2, n1, n2, rfl, ho, ht, h1, h2, hb, hn, v1, v2, h3, h4⟩ := h
  refine ⟨_, _, rfl, ?_⟩
  obtain ⟨m, name, e1, e2, e3, e4, e5⟩ := title_search ht
  have hcut : Cut (fun l => 61 ∈ l) (fun l => 61 ∉ l) 2 (r1 :: hd :: (b ++ [tl, r2])) := by
    refine .rule h1 (.other h2 ?_)
    have := cut_rows (b := b ++ [tl]) (r := r2) (fun l hl => by
      rcases List.mem_append.1 hl with hl | hl
      · exact forall_right (fun a l (h : PolIonRow.Line a l) => h.2) hb l hl
      · simp at hl; subst hl; exact h3) h4
    simpa using this
  have hs : Block.sliceBounds (t :: r1 :: hd :: (b ++ [tl, r2])) 3 1 = b ++ [tl] := by
    rw [Block.sliceBounds, if_neg (by decide)]
    simp [List.take_append]
  have hf : found Res.POL_HEADER_RE t = true := by rw [found, e1]; rfl
  have hi := ions_fold hrd hb hok.1 []
  rw [List.nil_append, Dict.ofList_nodup (rows.map (PolIonRow.entry rd)) (by rw [List.map_map]; exact hok.2.1)] at hi
  have hi : foldLines polIon [] b = .ok (rows.map (PolIonRow.entry rd)) := hi
  have hnum : Res.get_numbers tl = n1.text :: n2.text :: total.map Numeral.text := by
    rw [get_numbers_has hn (fun n hm => by
      rcases List.mem_cons.1 hm with rfl | hm
      · exact v1
      · rcases List.mem_cons.1 hm with rfl | hm
        · exact v2
        · exact (hok.2.2 n hm).1)]
    rfl
  have hp : polIons m (t :: r1 :: hd :: (b ++ [tl, r2])) = .ok (.str (py"ionic_contribution_to_polarisation"), .dict [(.str (py"units"), .str unit),
      (.str (py"total"), .tuple (total.map fun n => .float (rd n))), (.str (py"ions"), .dict (rows.map (PolIonRow.entry rd)))]) := by
    rw [polIons, hs]
    simp only [last_, List.getLast?_append, List.getLast?_singleton, Option.some_or, Delta.ok_bind, hnum, List.drop_succ_cons, List.drop_zero]
    rw [toFloats fun n hn => hrd n (hok.2.2 n hn).1 (hok.2.2 n hn).2]
    simp only [Delta.ok_bind, List.dropLast_concat]
    rw [hi]
    simp only [Delta.ok_bind, e2, e3, Option.getD_some, e4, unitOf, optStr]
    rfl
  rw [berryLine, if_pos ((Str.contains_iff _ _).2 ho), block_cut stops_equals hf hcut e5]
  simp only [Delta.ok_bind, e1, Option.getD_some]
  rw [hp]
  simp only [Delta.ok_bind]
  rw [all_set (i := .ions unit rows total) (fun _ => rfl) (fun _ _ => rfl) (fun _ => rfl)]
  rfl

/-- The tables. -/
theorem line_table {rd : Numeral → F64} {key unit t : Str} {b : List Str} (ht : BerryItem.Titled key unit t) (hv : BerryItem.NoVector t) (hcut : Cut (fun l => 61 ∈ l) (fun l => 61 ∉ l) 2 b)
    (items : List BerryItem) (rest : List Str) :
    ∃ m name, m.named (py"key") = some name ∧ m.named (py"unit") = some unit ∧ normalise_key name = key ∧
      berryLine t (b ++ rest) (all rd items) = (polTable m t (t :: b) (all rd items) >>= fun d => .ok (d, rest)) := by
  obtain ⟨m, name, e1, e2, e3, e4, e5⟩ := title_search ht
  refine ⟨m, name, e2, e3, e4, ?_⟩
  have hf : found Res.POL_HEADER_RE t = true := by rw [found, e1]; rfl
  have hi : ¬ Occurs BerryItem.ionTitle t := by
    rintro ⟨a, c, e⟩
    exact hv.1 ⟨a, py" contribution to polarisation" ++ c, by rw [e]; simp⟩
  rw [berryLine, if_neg (contains_not hi), vector_not hv]
  simp only []
  rw [block_cut stops_equals hf hcut e5]
  simp only [Delta.ok_bind, e1]
  rfl

theorem step {rd : Numeral → F64} (hrd : ∀ n : Numeral, n.Valid → n.InRange → parse_float_or_rational n.text = .ok (rd n)) {i : BerryItem}
    {ls : List Str} (h : i.Lines ls) (hok : i.Ok) {items : List BerryItem} (hit : ∀ i ∈ items, i.Ok) (rest : List Str) :
    ∃ l tl, ls = l :: tl ∧ berryLine l (tl ++ rest) (all rd items) = .ok (all rd (items ++ [i]), rest) := by
  cases i with
  | ions unit rows total => exact line_ions hrd h hok items rest
  | other =>
    obtain ⟨l, rfl, h1, h2⟩ := h
    refine ⟨_, _, rfl, ?_⟩
    obtain ⟨n1, n2⟩ := no_paren h1
    rw [berryLine, if_neg (contains_not h2), n1]
    simp only []
    rw [show blockOf (found Res.POL_HEADER_RE) (found EQUALS_RE) 2 true l ([] ++ rest) = .ok (none, rest) by
      rw [blockOf, Block.from_re, n2]; rfl]
    simp only [Delta.ok_bind]
    rw [all, all, pol_same (fun _ => rfl) (fun _ _ => rfl), List.filterMap_append]
    show _ = Except.ok (Dict.ofList (_ ++ []), rest)
    rw [List.append_nil]
    rfl
  | vector name unit a b c =>
    obtain ⟨l, g, m, g1, g2, g3, g4, r, rfl, e, hm, hm2, hg, hgs, hu, hu2, ho⟩ := h
    refine ⟨_, _, rfl, ?_⟩
    obtain ⟨mt, s1, s2, s3⟩ := vector_search (r := r) hok.1 hm hm2 hg hgs hu hu2 fun n hn => (hok.2 n hn).1
    rw [← e] at s1
    rw [TABLE_names] at s3
    have k1 : mt.named (py"key") = some name := by rw [named_eq s2 s3]; rfl
    have k2 : mt.named (py"unit") = some unit := by rw [named_eq s2 s3]; rfl
    have k3 : mt.named (py"a") = some a.text := by rw [named_eq s2 s3]; rfl
    have k4 : mt.named (py"b") = some b.text := by rw [named_eq s2 s3]; rfl
    have k5 : mt.named (py"c") = some c.text := by rw [named_eq s2 s3]; rfl
    have f := floatTuple (rd := rd) (ns := [a, b, c]) fun n hn => hrd n (hok.2 n hn).1 (hok.2 n hn).2
    rw [berryLine, if_neg (contains_not ho), s1]
    simp only [List.map_cons, List.map_nil, k1, k2, k3, k4, k5, optStr, unitOf, Option.getD_some, (vector_key hok.1).1] at f ⊢
    rw [f]
    simp only [Delta.ok_bind]
    exact congrArg (fun d => (Except.ok (d, rest) : PyM _)) (all_set (rd := rd) (items := items) (i := .vector name unit a b c) (fun _ => rfl) (fun _ _ => rfl) (fun _ => rfl))
  | table unit rows =>
    obtain ⟨t, r1, b, r2, rfl, ht, hv, hq, h1, h2, hb⟩ := h
    refine ⟨_, _, rfl, ?_⟩
    obtain ⟨m, name, e2, e3, e4, e⟩ := line_table (rd := rd) ht hv (.rule h1 (cut_rows (forall_right (fun a l (h : BerryRow.Line a l) => h.2.2) hb) h2)) items rest
    obtain ⟨g1, g2⟩ := ensure_pol (rd := rd) hit
    have hq' : Str.contains (py"Quantum") t = false := by simpa using contains_not hq
    rw [e, polTable, e2, slice2]
    simp only [Option.getD_some, e4, if_true, g1, hq', Bool.not_false]
    rw [ordinary hrd e3 hb hok]
    simp only [Delta.ok_bind]
    rw [g2, all_pol hit (fun _ => rfl)]
    rfl
  | quanta unit rows =>
    obtain ⟨t, hd, r1, b, r2, rfl, ht, hv, hq, h0, h1, h2, hb⟩ := h
    refine ⟨_, _, rfl, ?_⟩
    obtain ⟨m, name, e2, e3, e4, e⟩ := line_table (rd := rd) ht hv (.other h0 (.rule h1 (cut_rows (forall_right (fun a l (h : QuantumRow.Line a l) => h.2) hb) h2))) items rest
    obtain ⟨g1, g2⟩ := ensure_pol (rd := rd) hit
    have hq' : Str.contains (py"Quantum") t = true := (Str.contains_iff _ _).2 hq
    have hs : Block.sliceBounds (t :: hd :: r1 :: (b ++ [r2])) 2 1 = r1 :: b := slice2 (b := r1 :: b)
    rw [e, polTable, e2, hs]
    simp only [Option.getD_some, e4, if_true, g1, hq', Bool.not_true, Bool.false_eq_true, if_false, List.drop_one, List.tail_cons]
    rw [pol, quanta_fold hrd e3 hb hok]
    simp only [Delta.ok_bind]
    have : pol rd (items ++ [.quanta unit rows]) = Dict.ofList (polEs rd items ++ rows.map (QuantumRow.entry rd unit)) := by
      rw [pol, polEs, val_same rfl, val_same rfl, List.flatMap_append]
      simp [polEs, BerryItem.polEntries]
    rw [← this, g2, all_pol hit (fun _ => rfl)]
    rfl
  | volume unit rows =>
    obtain ⟨t, r1, b, r2, rfl, ht, hv, h1, h2, hb⟩ := h
    refine ⟨_, _, rfl, ?_⟩
    obtain ⟨m, name, e2, e3, e4, e⟩ := line_table (rd := rd) ht hv (.rule h1 (cut_rows (forall_right (fun a l (h : BerryRow.Line a l) => h.2.2) hb) h2)) items rest
    have f := rows_fold hrd hb hok.1 [(.str (py"units"), .str unit)]
    rw [List.singleton_append, Dict.ofList_nodup ((.str (py"units"), .str unit) :: rows.map (BerryRow.entry rd)) (by
      have := List.Nodup.map (f := Key.str) (fun a b h => by cases h; rfl) hok.2
      simpa [List.map_map, Function.comp_def, BerryRow.entry] using this)] at f
    have f : foldLines polRow [(.str (py"units"), .str unit)] b = _ := f
    rw [e, polTable, e2, slice2]
    simp only [Option.getD_some, e4, unitOf, e3, optStr]
    rw [if_neg (by decide), if_pos trivial, f]
    simp only [Delta.ok_bind]
    rw [all_set (i := .volume unit rows) (fun _ => rfl) (fun _ _ => rfl) (fun _ => rfl)]
    rfl

theorem loop_cons (f : Nat) (l : Str) (rest : List Str) (d : Dict Key PyVal) : berryLoop (f + 1) (l :: rest) d = (berryLine l rest d >>= fun p => berryLoop f p.2 p.1) := by rfl
theorem loop_nil (f : Nat) (d : Dict Key PyVal) : berryLoop (f + 1) [] d = .ok d := by rfl

theorem loop {rd : Numeral → F64} (hrd : ∀ n : Numeral, n.Valid → n.InRange → parse_float_or_rational n.text = .ok (rd n))
    {items : List BerryItem} {ls : List (List Str)} (h : List.Forall₂ BerryItem.Lines items ls) :
    (∀ i ∈ items, i.Ok) → ∀ (f : Nat) (pre : List BerryItem), (∀ i ∈ pre, i.Ok) → ls.flatten.length < f →
      berryLoop f ls.flatten (all rd pre) = .ok (all rd (pre ++ items)) := by
  induction h with
  | nil =>
    intro _ f pre _ hf
    obtain ⟨f, rfl⟩ : ∃ k, f = k + 1 := ⟨f - 1, by simp at hf; omega⟩
    rw [List.flatten_nil, loop_nil, List.append_nil]
  | @cons i a items ls hl _ ih =>
    intro hok f pre hpre hf
    obtain ⟨f, rfl⟩ : ∃ k, f = k + 1 := ⟨f - 1, by simp at hf; omega⟩
    obtain ⟨l, tl, rfl, e⟩ := step hrd hl (hok i (by simp)) hpre ls.flatten
    rw [List.flatten_cons, List.cons_append, loop_cons, e]
    simp only [Delta.ok_bind]
    rw [List.flatten_cons, List.length_append, List.length_cons] at hf
    rw [ih (fun i hi => hok i (by simp [hi])) f (pre ++ [i]) (fun j hj => by
      rcases List.mem_append.1 hj with hj | hj
      · exact hpre j hj
      · simp at hj; subst hj; exact hok _ (by simp)) (by omega)]
    simp

end Verif.Castep.BerryTab

import Verif.Lemmas.MdFrame
/-
What the dictionary built from the lines of a frame contains.
-/
namespace Verif.MdFrame
open Verif Verif.Spec Verif.MdGeom Verif.Props

theorem firstSeen_snoc (ks : List Key) (k : Key) :
    firstSeen (ks ++ [k]) = if k ∈ ks then firstSeen ks else firstSeen ks ++ [k] := by
  induction ks with
  | nil => simp [firstSeen]
  | cons a ks ih =>
    rw [List.cons_append, firstSeen, ih]
    by_cases h : k ∈ ks
    · rw [if_pos h, if_pos (by simp [h]), firstSeen]
    · rw [if_neg h, List.filter_append]
      by_cases ha : k = a
      · subst ha; simp [firstSeen]
      · rw [if_neg (by simp [ha, h]), firstSeen]; simp [ha]

theorem mem_firstSeen (ks : List Key) (k : Key) : k ∈ firstSeen ks ↔ k ∈ ks := by
  induction ks with
  | nil => simp [firstSeen]
  | cons a ks ih =>
    simp only [firstSeen, List.mem_cons, List.mem_filter, ih]
    by_cases h : k = a <;> simp [h]

/-- The entry of an atom before the long names are added. -/
structure RawIon (val : Numeral → F64) (ls : List FLine) (ion : Key) (e : Dict Key PyVal) : Prop where
  nodup : e.keys.Nodup
  tags : ∀ name, e.get? (.str name) = vecIn val ls ion name
  others : ∀ k, (∀ s, k ≠ .str s) → e.get? k = none

/-- The dictionary before the long names are added. -/
structure Raw (val : Numeral → F64) (ls : List FLine) (d : Dict Key PyVal) : Prop where
  nodup : d.keys.Nodup
  time : d.get? (.str (py"time")) = timeIn val ls
  tags : ∀ name, name ≠ py"time" → name ≠ py"ions" →
    d.get? (.str name) = match rowsIn val ls name with | [] => none | rows => some (.list rows)
  others : ∀ k, (∀ s, k ≠ .str s) → d.get? k = none
  ions : ∃ ions : Dict Key PyVal, d.get? (.str (py"ions")) = some (.dict ions) ∧
    ions.keys = firstSeen (ionsIn ls) ∧ ions.keys.Nodup ∧
    ∀ ion ∈ ionsIn ls, ∃ e : Dict Key PyVal, ions.get? ion = some (.dict e) ∧ RawIon val ls ion e

theorem timeIn_snoc (val : Numeral → F64) (ls : List FLine) (l : FLine) :
    timeIn val (ls ++ [l]) = match l with | .time _ n _ => some (.float (val n)) | _ => timeIn val ls := by
  simp only [timeIn, List.reverse_append, List.reverse_cons, List.reverse_nil, List.nil_append, List.singleton_append, List.findSome?_cons]
  cases l <;> rfl

theorem rowsIn_snoc (val : Numeral → F64) (ls : List FLine) (l : FLine) (tag : Str) :
    rowsIn val (ls ++ [l]) tag = rowsIn val ls tag ++ (match l with
      | .glob ns _ _ t _ => if t = tag then [.list (ns.map fun p => .float (val p.2))] else []
      | _ => []) := by
  simp only [rowsIn, List.filterMap_append]
  cases l with
  | glob ns g g' t tail => by_cases h : t = tag <;> simp [List.filterMap_cons, h]
  | _ => simp [List.filterMap_cons]

theorem ionsIn_snoc (ls : List FLine) (l : FLine) : ionsIn (ls ++ [l]) = ionsIn ls ++ l.ion?.toList := by
  simp only [ionsIn, List.filterMap_append]
  cases h : l.ion? <;> simp [List.filterMap_cons, h]

theorem vecIn_snoc (val : Numeral → F64) (ls : List FLine) (l : FLine) (ion : Key) (tag : Str) :
    vecIn val (ls ++ [l]) ion tag = match l with
      | .atom _ name _ idx x y z _ _ t _ =>
        if Key.tup [.str name.text, .int (Numeral.nat idx)] = ion ∧ t = tag then
          some (.tuple [.float (val x.2), .float (val y.2), .float (val z.2)]) else vecIn val ls ion tag
      | _ => vecIn val ls ion tag := by
  simp only [vecIn, List.reverse_append, List.reverse_cons, List.reverse_nil, List.nil_append, List.singleton_append, List.findSome?_cons]
  cases l with
  | atom g name gi idx x y z gt g' t tail =>
    simp only [FLine.ion?, Option.some.injEq]
    by_cases h : Key.tup [.str name.text, .int (Numeral.nat idx)] = ion ∧ t = tag
    · rw [if_pos h]; simp [h]
    · rw [if_neg h]; simp [h]
  | _ => rfl

theorem not_atom_vec {val : Numeral → F64} {ls : List FLine} {ion : Key} (h : ion ∉ ionsIn ls) (tag : Str) :
    vecIn val ls ion tag = none := by
  rw [vecIn, List.findSome?_eq_none_iff]
  intro l hl
  cases l with
  | atom g name gi idx x y z gt g' t tail =>
    simp only [ite_eq_right_iff, reduceCtorEq, imp_false, not_and]
    intro hi
    exact absurd (List.mem_filterMap.2 ⟨_, by simpa using hl, hi⟩) h
  | _ => rfl

theorem raw_nil (val : Numeral → F64) : Raw val [] (Dict.set [] (.str (py"ions")) (.dict [])) := by
  refine ⟨by decide +kernel, rfl, ?_, ?_, [], rfl, rfl, by simp [Dict.keys], by simp [ionsIn]⟩
  · intro name _ h
    show Dict.get? [(Key.str (py"ions"), PyVal.dict [])] (.str name) = none
    rw [Dict.get?_eq_none]; simpa [Dict.keys] using h
  · intro k h
    show Dict.get? [(Key.str (py"ions"), PyVal.dict [])] k = none
    rw [Dict.get?_eq_none]; simpa [Dict.keys] using h (py"ions")

theorem raw_step {val : Numeral → F64} {ls : List FLine} {d : Dict Key PyVal} (h : Raw val ls d) (l : FLine)
    (hl : l.Ok) (hv : Reads val l.numerals) : ∃ d', step d l.text = .ok d' ∧ Raw val (ls ++ [l]) d' := by
  obtain ⟨hnd, htime, htags, hoth, ions, hions, hkeys, hknd, hion⟩ := h
  have keepIon : ∀ ion e, RawIon val ls ion e → l.ion? = none → RawIon val (ls ++ [l]) ion e := by
    intro ion e h hn
    refine ⟨h.1, fun name => ?_, h.3⟩
    rw [h.2, vecIn_snoc]
    cases l with
    | atom => simp [FLine.ion?] at hn
    | _ => rfl
  cases l with
  | blank ws =>
    refine ⟨d, step_blank d ws hl, hnd, by rw [timeIn_snoc]; exact htime, ?_, hoth, ions, hions, ?_, hknd, ?_⟩
    · intro name h1 h2; rw [rowsIn_snoc]; simpa using htags name h1 h2
    · rw [ionsIn_snoc]; simpa [FLine.ion?] using hkeys
    · intro ion hi
      rw [ionsIn_snoc] at hi
      obtain ⟨e, h1, h2⟩ := hion ion (by simpa [FLine.ion?] using hi)
      exact ⟨e, h1, keepIon ion e h2 rfl⟩
  | time g n tail =>
    refine ⟨_, step_time d g n tail hl hv, Dict.nodup_set _ _ _ hnd, ?_, ?_, ?_, ions, ?_, ?_, hknd, ?_⟩
    · rw [timeIn_snoc, Dict.get?_set_self]
    · intro name h1 h2
      rw [Dict.get?_set_ne _ _ _ _ (by simpa using h1), rowsIn_snoc]
      simpa using htags name h1 h2
    · intro k hk
      rw [Dict.get?_set_ne _ _ _ _ (hk _)]; exact hoth k hk
    · rw [Dict.get?_set_ne _ _ _ _ (by decide)]; exact hions
    · rw [ionsIn_snoc]; simpa [FLine.ion?] using hkeys
    · intro ion hi
      rw [ionsIn_snoc] at hi
      obtain ⟨e, h1, h2⟩ := hion ion (by simpa [FLine.ion?] using hi)
      exact ⟨e, h1, keepIon ion e h2 rfl⟩
  | glob ns g g' tag tail =>
    have hres := hl.2.2.2.2.1.2.2.1
    have hne1 : tag ≠ py"time" := by rintro rfl; exact hres (by decide)
    have hne2 : tag ≠ py"ions" := by rintro rfl; exact hres (by decide)
    have hstep := step_glob d ns g g' tag tail hl hv
    have key : appendTo d (.str tag) (.list (ns.map fun p => .float (val p.2)))
        = .ok (d.set (.str tag) (.list (rowsIn val ls tag ++ [.list (ns.map fun p => .float (val p.2))]))) := by
      rw [appendTo, htags tag hne1 hne2]
      cases hr : rowsIn val ls tag with
      | nil => rfl
      | cons a l => rfl
    refine ⟨_, hstep.trans key, Dict.nodup_set _ _ _ hnd, ?_, ?_, ?_, ions, ?_, ?_, hknd, ?_⟩
    · rw [timeIn_snoc, Dict.get?_set_ne _ _ _ _ (by simpa using hne1.symm)]; exact htime
    · intro name h1 h2
      rw [rowsIn_snoc, Dict.get?_set]
      by_cases hn : tag = name
      · subst hn
        rw [if_pos rfl]
        simp only [if_true]
        split
        · rename_i h; simp at h
        · rfl
      · rw [if_neg (by simpa using hn), htags name h1 h2]; simp [hn]
    · intro k hk
      rw [Dict.get?_set_ne _ _ _ _ (hk _)]; exact hoth k hk
    · rw [Dict.get?_set_ne _ _ _ _ (by simpa using hne2.symm)]; exact hions
    · rw [ionsIn_snoc]; simpa [FLine.ion?] using hkeys
    · intro ion hi
      rw [ionsIn_snoc] at hi
      obtain ⟨e, h1, h2⟩ := hion ion (by simpa [FLine.ion?] using hi)
      exact ⟨e, h1, keepIon ion e h2 rfl⟩
  | atom g name gi idx x y z gt g' tag tail =>
    have hstep := step_atom (val := val) d g name gi idx x y z gt g' tag tail hl hv
    generalize hk : Key.tup [.str name.text, .int (Numeral.nat idx)] = ion0 at hstep
    generalize hw : PyVal.tuple [.float (val x.2), .float (val y.2), .float (val z.2)] = v0 at hstep
    have hvec : ∀ ion t, vecIn val (ls ++ [FLine.atom g name gi idx x y z gt g' tag tail]) ion t
        = if ion0 = ion ∧ tag = t then some v0 else vecIn val ls ion t := by
      intro ion t; rw [vecIn_snoc]; simp only [hk, hw]
    have hio : (FLine.atom g name gi idx x y z gt g' tag tail).ion? = some ion0 := by rw [← hk]; rfl
    -- the entry of this atom so far
    obtain ⟨e0, he0, hset⟩ : ∃ e0 : Dict Key PyVal, RawIon val ls ion0 e0 ∧
        setIon d ion0 (.str tag) v0 = .ok (d.set (.str (py"ions")) (.dict (Dict.set ions ion0 (.dict (Dict.set e0 (.str tag) v0))))) := by
      by_cases hm : ion0 ∈ ionsIn ls
      · obtain ⟨e, h1, h2⟩ := hion ion0 hm
        refine ⟨e, h2, ?_⟩
        rw [setIon, hions]; simp only [h1]
      · refine ⟨[], ⟨by simp [Dict.keys], fun t => by rw [not_atom_vec hm]; rfl, fun _ _ => rfl⟩, ?_⟩
        have : Dict.get? ions ion0 = none := by
          rw [Dict.get?_eq_none, hkeys, mem_firstSeen]; exact hm
        rw [setIon, hions]; simp only [this]
    refine ⟨_, hstep.trans hset, Dict.nodup_set _ _ _ hnd, ?_, ?_, ?_, Dict.set ions ion0 (.dict (Dict.set e0 (.str tag) v0)),
      Dict.get?_set_self _ _ _, ?_, Dict.nodup_set _ _ _ hknd, ?_⟩
    · rw [timeIn_snoc, Dict.get?_set_ne _ _ _ _ (by decide)]; exact htime
    · intro name h1 h2
      rw [Dict.get?_set_ne _ _ _ _ (by simpa using h2), rowsIn_snoc]
      simpa using htags name h1 h2
    · intro k hk
      rw [Dict.get?_set_ne _ _ _ _ (hk _)]; exact hoth k hk
    · rw [ionsIn_snoc, hio, Option.toList_some, firstSeen_snoc]
      by_cases hm : ion0 ∈ ionsIn ls
      · rw [if_pos hm, Dict.keys_set_of_mem _ _ _ (by rw [hkeys, mem_firstSeen]; exact hm), hkeys]
      · rw [if_neg hm, Dict.keys_set_of_not_mem _ _ _ (by rw [hkeys, mem_firstSeen]; exact hm), hkeys]
    · intro ion hi
      rw [ionsIn_snoc, hio] at hi
      by_cases he : ion = ion0
      · subst he
        refine ⟨_, Dict.get?_set_self _ _ _, Dict.nodup_set _ _ _ he0.1, ?_, ?_⟩
        · intro t
          rw [hvec, Dict.get?_set]
          by_cases ht : tag = t
          · subst ht; simp
          · rw [if_neg (by simpa using ht), if_neg (by simp [ht]), he0.2]
        · intro k hk
          rw [Dict.get?_set_ne _ _ _ _ (hk _)]; exact he0.3 k hk
      · have hm : ion ∈ ionsIn ls := by simpa [he] using hi
        obtain ⟨e, h1, h2⟩ := hion ion hm
        refine ⟨e, by rw [Dict.get?_set_ne _ _ _ _ he]; exact h1, h2.1, ?_, h2.3⟩
        intro t
        rw [hvec, if_neg (by simp [Ne.symm he])]; exact h2.2 t

theorem steps_snoc (curr : Dict Key PyVal) (l : List Str) (s : Str) :
    steps curr (l ++ [s]) = (steps curr l).bind fun c => step c s := by
  rw [steps_append]
  congr 1
  funext c
  rw [steps]
  cases step c s <;> rfl

theorem raw_steps {val : Numeral → F64} (ls : List FLine) (hl : ∀ l ∈ ls, l.Ok) (hv : ∀ l ∈ ls, Reads val l.numerals) :
    ∃ d, steps (Dict.set [] (.str (py"ions")) (.dict [])) (ls.map FLine.text) = .ok d ∧ Raw val ls d := by
  induction ls using List.reverseRecOn with
  | nil => exact ⟨_, rfl, raw_nil val⟩
  | append_singleton ls l ih =>
    obtain ⟨d, h1, h2⟩ := ih (fun x hx => hl x (by simp [hx])) (fun x hx => hv x (by simp [hx]))
    obtain ⟨d', h3, h4⟩ := raw_step h2 l (hl l (by simp)) (hv l (by simp))
    exact ⟨d', by rw [List.map_append, List.map_cons, List.map_nil, steps_snoc, h1]; exact h3, h4⟩

/-! ### Long names -/

theorem tagAliases_eq : tagAliases = longName.map fun p => (Key.str p.1, Key.str p.2) := rfl

theorem alias_get (d : Dict Key PyVal) (hd : d.keys.Nodup) (hlong : ∀ p ∈ longName, d.get? (.str p.2) = none) :
    (∀ name, (add_aliases d tagAliases).2.get? (.str name) = d.get? (.str (tagOf name))) ∧
    ∀ k, (∀ s, k ≠ .str s) → (add_aliases d tagAliases).2.get? k = d.get? k := by
  have hA := Props.C27_aliases d tagAliases false true hd (by decide +kernel) (by decide +kernel) (by decide +kernel)
  simp only [← (Props.C27_inplace d tagAliases false).2] at hA
  obtain ⟨h1, -, h3⟩ := hA
  refine ⟨fun name => ?_, fun k hk => ?_⟩
  · unfold tagOf
    cases hf : longName.find? (·.2 = name) with
    | none =>
      rw [Option.map_none, Option.getD_none]
      apply h3 (.str name) _ (by simp)
      intro f hm
      rw [tagAliases_eq, List.mem_map] at hm
      obtain ⟨p, hp, e⟩ := hm
      rw [List.find?_eq_none] at hf
      simp at e
      exact absurd e.2 (by simpa using hf p hp)
    | some p =>
      have hp := List.mem_of_find?_eq_some hf
      have hn : p.2 = name := by simpa using List.find?_some hf
      rw [Option.map_some, Option.getD_some]
      cases hv : d.get? (.str p.1) with
      | some v =>
        exact h1 (.str p.1) (.str name) v (by rw [tagAliases_eq, ← hn]; exact List.mem_map.2 ⟨p, hp, rfl⟩) hv
      | none =>
        rw [← hlong p hp, hn]
        apply h3 (.str name) _ (by simp)
        intro f hm
        rw [tagAliases_eq, List.mem_map] at hm
        obtain ⟨q, hq, e⟩ := hm
        simp at e
        have hinj : ∀ p ∈ longName, ∀ q ∈ longName, p.2 = q.2 → p = q := by decide +kernel
        have := hinj p hp q hq (by rw [hn, e.2])
        rw [← e.1, ← this]; exact hv
  · apply h3 k _ (by simp)
    intro f hm
    rw [tagAliases_eq, List.mem_map] at hm
    obtain ⟨p, hp, e⟩ := hm
    simp at e
    exact absurd e.2.symm (hk _)

theorem long_reserved : ∀ p ∈ longName, p.2 ∈ FLine.reserved := by decide +kernel

theorem rows_reserved {val : Numeral → F64} {ls : List FLine} (hl : ∀ l ∈ ls, l.Ok) {tag : Str} (h : tag ∈ FLine.reserved) :
    rowsIn val ls tag = [] := by
  rw [rowsIn, List.filterMap_eq_nil_iff]
  intro l hm
  cases l with
  | glob ns g g' t tail =>
    have := (hl _ hm).2.2.2.2.1.2.2.1
    simp only
    rw [if_neg]; rintro rfl; exact this h
  | _ => rfl

theorem vec_reserved {val : Numeral → F64} {ls : List FLine} (hl : ∀ l ∈ ls, l.Ok) {ion : Key} {tag : Str} (h : tag ∈ FLine.reserved) :
    vecIn val ls ion tag = none := by
  rw [vecIn, List.findSome?_eq_none_iff]
  intro l hm
  cases l with
  | atom g name gi idx x y z gt g' t tail =>
    have hm : FLine.atom g name gi idx x y z gt g' t tail ∈ ls := by simpa using hm
    have := (hl _ hm).2.2.2.2.2.2.2.2.2.2.2.1
    simp only
    rw [if_neg]; rintro ⟨-, rfl⟩; exact this h
  | _ => rfl

theorem tagOf_special : tagOf (py"time") = py"time" ∧ tagOf (py"ions") = py"ions" := by decide +kernel

theorem tagOf_ne (name : Str) (h1 : name ≠ py"time") (h2 : name ≠ py"ions") :
    tagOf name ≠ py"time" ∧ tagOf name ≠ py"ions" := by
  unfold tagOf
  cases hf : longName.find? (·.2 = name) with
  | none => exact ⟨h1, h2⟩
  | some p =>
    have hp := List.mem_of_find?_eq_some hf
    have : ∀ p ∈ longName, p.1 ≠ py"time" ∧ p.1 ≠ py"ions" := by decide +kernel
    exact this p hp

theorem get?_map_val (d : Dict Key PyVal) (f : PyVal → PyVal) (k : Key) :
    Dict.get? (d.map fun kv => (kv.1, f kv.2)) k = (d.get? k).map f := by
  induction d with
  | nil => rfl
  | cons kv d ih =>
    obtain ⟨a, v⟩ := kv
    simp only [List.map_cons, Dict.get?] at ih ⊢
    by_cases h : a = k
    · simp [h]
    · simpa [h] using ih

/-- The whole frame. -/
theorem frame_says {val : Numeral → F64} (ls : List FLine) (hl : ∀ l ∈ ls, l.Ok) (hv : ∀ l ∈ ls, Reads val l.numerals) :
    ∃ d, parse_md_geom_frame (ls.map FLine.text) = .ok (.dict d) ∧ SaysFrame val ls d := by
  obtain ⟨d, h1, hnd, htime, htags, hoth, ions, hions, hkeys, hknd, hion⟩ := raw_steps ls hl hv
  refine ⟨_, by rw [parse_md_geom_frame, h1]; rfl, ?_⟩
  obtain ⟨ha, hb⟩ := alias_get d hnd (by
    intro p hp
    have hr := long_reserved p hp
    rw [htags p.2 (by revert p; decide +kernel) (by revert p; decide +kernel), rows_reserved hl hr])
  generalize hd2 : (add_aliases d tagAliases).2 = d2 at ha hb
  have hi2 : d2.get? (.str (py"ions")) = some (.dict ions) := by rw [ha, tagOf_special.2, hions]
  have hal : aliasIons d2 = d2.set (.str (py"ions")) (.dict (ions.map fun kv => (kv.1, aliasVal kv.2))) := by
    rw [aliasIons, hi2]
  rw [hal]
  refine ⟨?_, ?_, ?_, _, Dict.get?_set_self _ _ _, ?_, ?_⟩
  · rw [Dict.get?_set_ne _ _ _ _ (by decide), ha, tagOf_special.1, htime]
  · intro name h1 h2
    obtain ⟨h3, h4⟩ := tagOf_ne name h1 h2
    rw [Dict.get?_set_ne _ _ _ _ (by simpa using h2), ha, htags _ h3 h4]
    cases rowsIn val ls (tagOf name) <;> rfl
  · intro k hk
    rw [Dict.get?_set_ne _ _ _ _ (hk _), hb k hk, hoth k hk]
  · rw [← hkeys]; simp [Dict.keys]
  · intro ion hi
    obtain ⟨e, h1, h2⟩ := hion ion hi
    obtain ⟨h3, h4⟩ := alias_get e h2.1 (by
      intro p hp
      rw [h2.2, vec_reserved hl (long_reserved p hp)])
    refine ⟨_, by rw [get?_map_val, h1]; rfl, fun name => by rw [h3, h2.2], fun k hk => by rw [h4 k hk, h2.3 k hk]⟩

end Verif.MdFrame

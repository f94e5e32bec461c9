import Verif.Lemmas.CastepRows
import Verif.Lemmas.LitRe
import Verif.Lemmas.CastepStep
import Verif.Lemmas.BlankRe
import Verif.Props.Numbers
/-
The q-points of the phonon section.
-/
namespace Verif.Castep
open Verif Verif.Spec

theorem match_names {p : Pat} {l : Str} {m : Match} (h : p.match_ l = some m) : m.names = p.names := by
  simp only [Pat.match_, Pat.matchAt] at h
  cases hm : (p.re.m ⟨[], l, []⟩).head? with
  | none => rw [hm] at h; cases h
  | some t => rw [hm] at h; cases h; rfl

/-- The key of the q-point. -/
abbrev QPT : Key := .str (py"qpt")

theorem appendTo_other {d d' : Dict Key PyVal} {k k' : Key} {v : PyVal} (h : MdGeom.appendTo d k v = .ok d') (hk : k' ≠ k) :
    d'.get? k' = d.get? k' := by
  unfold MdGeom.appendTo at h
  split at h
  · cases h; exact Dict.get?_set_ne _ _ _ _ hk
  · cases h; exact Dict.get?_set_ne _ _ _ _ hk
  · cases h

theorem stackInto_other {k : Key} : ∀ (row : List (Key × PyVal)) (d d' : Dict Key PyVal), stackInto d row = .ok d' →
    (∀ kv ∈ row, k ≠ kv.1) → d'.get? k = d.get? k
  | [], d, d', h, _ => by cases h; rfl
  | (k1, v1) :: row, d, d', h, hk => by
    rw [stackInto] at h
    cases ha : MdGeom.appendTo d k1 v1 with
    | error e => rw [ha] at h; cases h
    | ok d1 =>
      rw [ha] at h
      rw [stackInto_other row d1 d' h fun kv hkv => hk kv (by simp [hkv]), appendTo_other ha (hk (k1, v1) (by simp))]

/-- The lines of the rows do not touch the q-point. -/
theorem row_keeps {l : Str} {m : Match} (h : Res.PROCESS_PHONON_RE.match_ l = some m) {q q' : Dict Key PyVal}
    (hs : stackInto q (groupVals m) = .ok q') : q'.get? QPT = q.get? QPT := by
  refine stackInto_other _ _ _ hs ?_
  have hn := match_names h
  have hp : ∀ p ∈ Res.PROCESS_PHONON_RE.names, py"qpt" ≠ p.1 := by decide +kernel
  intro kv hkv
  simp only [groupVals, Match.groupdict, hn, List.map_map, List.mem_map] at hkv
  obtain ⟨p, hp', rfl⟩ := hkv
  intro e
  exact hp p hp' (by simpa [QPT] using e)

/-- The q-point read from a header line. -/
def headOf (l : Str) : Option Str := (Res.PHONON_RE.match_ l).bind fun m => m.named (py"qpt")

/-- An entry has this q-point. -/
def HasQ (d : Dict Key PyVal) (s : Str) : Prop :=
  ∃ xs, Dict.get? d QPT = some (.tuple xs) ∧ to_type .float (.list ((Str.split s).map .str)) = .ok (.tuple xs)

theorem get?_filter {d : Dict Key PyVal} {k : Key} {p : Key × PyVal → Bool} (hp : ∀ v, p (k, v) = true) :
    Dict.get? (d.filter p) k = d.get? k := by
  induction d with
  | nil => rfl
  | cons kv d ih =>
    obtain ⟨k1, v1⟩ := kv
    by_cases hk : k1 = k
    · subst hk
      rw [List.filter_cons, if_pos (hp v1)]
      simp [Dict.get?]
    · rw [List.filter_cons]
      split
      · simp only [Dict.get?, hk, if_false] at ih ⊢; exact ih
      · simp only [Dict.get?, hk, if_false] at ih ⊢; exact ih

theorem qdata_q {q q' : Dict Key PyVal} {s : Str} (h : process_qdata q = .ok q')
    (hq : q.get? QPT = some (.list ((Str.split s).map .str))) : HasQ q' s := by
  rw [process_qdata] at h
  have hf : Dict.get? (q.filter fun kv => anyTrue kv.2 || kv.1 == QPT) QPT = some (.list ((Str.split s).map .str)) := by
    rw [get?_filter (by simp), hq]
  generalize (q.filter fun kv => anyTrue kv.2 || kv.1 == QPT) = d at h hf
  rw [fix_data_types, hf] at h
  dsimp only at h
  cases ht : to_type .float (.list ((Str.split s).map .str)) with
  | error e => rw [ht] at h; cases h
  | ok v =>
    rw [ht] at h
    have hv : ∃ xs, v = .tuple xs := by
      rw [to_type] at ht
      cases hl : toTypeList .float ((Str.split s).map .str) with
      | error e => rw [hl] at ht; cases ht
      | ok l => rw [hl] at ht; cases ht; exact ⟨l, rfl⟩
    obtain ⟨xs, rfl⟩ := hv
    have h2 := Props.C28_fix_data_types _ _ _ (by decide) h QPT
    rw [Dict.get?_set_self] at h2
    refine ⟨xs, ?_, ht⟩
    have hfind : ([(Key.str (py"N"), Ty.int), (.str (py"frequency"), .float), (.str (py"ir_intensity"), .float),
      (.str (py"raman_intensity"), .float)].find? fun x => decide (x.1 = QPT)) = none := by decide
    rw [hfind] at h2
    exact h2

theorem flush_none {accum : List (Dict Key PyVal)} {q : Dict Key PyVal} (h : q.get? QPT = none) :
    phononFlush accum q = .ok accum := by
  unfold phononFlush; rw [h]

theorem flush_some {accum accum' : List (Dict Key PyVal)} {q : Dict Key PyVal} {s : Str}
    (hq : q.get? QPT = some (.list ((Str.split s).map .str))) (hs : Str.split s ≠ [])
    (ha : ∀ d ∈ accum, ∃ s, HasQ d s) (h : phononFlush accum q = .ok accum') :
    ∃ d, accum' = accum ++ [d] ∧ HasQ d s := by
  have hany : (accum.any fun p => p.get? QPT == some (.list ((Str.split s).map .str))) = false := by
    rw [List.any_eq_false]
    intro d hd
    obtain ⟨_, xs, hx, -⟩ := ha d hd
    rw [hx]
    simp
  have htr : (PyVal.list ((Str.split s).map .str)).truthy = true := by
    cases hc : Str.split s with
    | nil => exact absurd hc hs
    | cons w ws => rfl
  unfold phononFlush at h
  rw [hq] at h
  simp only [hany, htr, Bool.not_false, Bool.and_self, if_true] at h
  cases hp : process_qdata q with
  | error e => rw [hp] at h; cases h
  | ok d =>
    rw [hp] at h
    cases h
    exact ⟨d, rfl, qdata_q hp hq⟩

/-- The group with number `n` is at this place among the parts, does not come again, and cannot be blank. -/
def groupAt (k n : Nat) (r : Re) : Bool :=
  match (Re.parts r).drop k with
  | .group i c :: B => i == n && !Re.spaceable c && (B.flatMap Re.groupsOf).all fun q => q.1 != n
  | _ => false

theorem group_of_parts {p : Pat} {k n : Nat} (hk : groupAt k n p.re = true) {l : Str} {m : Match} (h : p.match_ l = some m) :
    ∃ w, m.group n = some w ∧ ¬ Blank w := by
  unfold groupAt at hk
  split at hk
  · rename_i i c B hd
    simp only [Bool.and_eq_true, beq_iff_eq, Bool.not_eq_true', List.all_eq_true, bne_iff_ne] at hk
    obtain ⟨⟨rfl, h1⟩, h2⟩ := hk
    simp only [Pat.match_, Pat.matchAt] at h
    cases hh : (p.re.m ⟨[], l, []⟩).head? with
    | none => rw [hh] at h; cases h
    | some st =>
      rw [hh] at h
      obtain rfl := Option.some.inj h
      obtain ⟨_, w, vs, -, e, hl, -⟩ := Re.cap_of_parts (A := (Re.parts p.re).take k) (by rw [← hd, List.take_append_drop])
        h2 (List.mem_of_head? hh)
      exact ⟨w, e, Re.lang_not_blank h1 hl⟩
  · cases hk

theorem split_ne_nil {s : Str} (h : ¬ Blank s) : Str.split s ≠ [] := by
  intro e
  apply h
  have := split_fields s
  rw [e] at this
  generalize hw : ([] : List Str) = ws at this
  cases this with
  | nil hb => intro c hc; simpa using hb c hc
  | cons => cases hw

theorem head_named {l : Str} {m : Match} (h : Res.PHONON_RE.match_ l = some m) :
    ∃ s, m.named (py"qpt") = some s ∧ Str.split s ≠ [] ∧ headOf l = some s := by
  obtain ⟨w, hw, hb⟩ := group_of_parts (k := 15) (n := 1) (by decide +kernel) h
  have hn : Res.PHONON_RE.names.find? (fun x => decide (x.1 = py"qpt")) = some (py"qpt", 1) := by decide +kernel
  have : m.named (py"qpt") = some w := by
    rw [Match.named, match_names h, hn]; exact hw
  exact ⟨w, this, split_ne_nil hb, by rw [headOf, h]; exact this⟩

/-- What is known of the q-point being read. -/
def Open (q : Dict Key PyVal) : Option Str → Prop
  | none => q.get? QPT = none
  | some s => q.get? QPT = some (.list ((Str.split s).map .str)) ∧ Str.split s ≠ []

theorem flush_open {accum accum' : List (Dict Key PyVal)} {q : Dict Key PyVal} {o : Option Str} {hs : List Str} (ho : Open q o)
    (ha : List.Forall₂ HasQ accum hs) (h : phononFlush accum q = .ok accum') :
    List.Forall₂ HasQ accum' (hs ++ o.toList) := by
  cases o with
  | none => rw [flush_none ho] at h; cases h; simpa using ha
  | some s =>
    obtain ⟨d, rfl, hd⟩ := flush_some ho.1 ho.2 (fun d hd => by
      obtain ⟨i, hi, rfl⟩ := List.mem_iff_getElem.1 hd
      exact ⟨_, List.Forall₂.get ha hi (ha.length_eq ▸ hi)⟩) h
    exact List.rel_append ha (.cons hd .nil)

theorem phonon_loop_nil (fuel : Nat) (accum : List (Dict Key PyVal)) (q : Dict Key PyVal) :
    phononLoop (fuel + 1) [] accum q = .ok (accum, q) := rfl

set_option maxRecDepth 20000 in
theorem phonon_loop_cons (fuel : Nat) (line : Str) (rest : List Str) (accum : List (Dict Key PyVal)) (q : Dict Key PyVal) :
    phononLoop (fuel + 1) (line :: rest) accum q =
      (match Res.PHONON_RE.match_ line with
      | some m => do
        let accum ← phononFlush accum q
        let qpt ← grp m (py"qpt")
        phononLoop fuel rest accum [(.str (py"qpt"), .list ((Str.split qpt).map .str))]
      | none =>
        match Res.PROCESS_PHONON_RE.match_ line with
        | some m => do
          let q ← stackInto q (groupVals m)
          phononLoop fuel rest accum q
        | none => do
          match ← blockOf (found REP_MUL_RE) (found CHAR_END_RE) 1 true line rest with
          | (some b, rest) => do
            let t ← charTable b
            phononLoop fuel rest accum (q.set (.str (py"char_table")) t)
          | (none, rest) => phononLoop fuel rest accum q) := rfl

theorem phonon_loop_head (fuel : Nat) (line : Str) (rest : List Str) (accum : List (Dict Key PyVal)) (q : Dict Key PyVal) (m : Match)
    (hm : Res.PHONON_RE.match_ line = some m) :
    phononLoop (fuel + 1) (line :: rest) accum q = (do
      let accum ← phononFlush accum q
      let qpt ← grp m (py"qpt")
      phononLoop fuel rest accum [(.str (py"qpt"), .list ((Str.split qpt).map .str))]) := by
  rw [phonon_loop_cons, hm]

theorem phonon_loop_row (fuel : Nat) (line : Str) (rest : List Str) (accum : List (Dict Key PyVal)) (q : Dict Key PyVal) (m : Match)
    (hm : Res.PHONON_RE.match_ line = none) (hp : Res.PROCESS_PHONON_RE.match_ line = some m) :
    phononLoop (fuel + 1) (line :: rest) accum q = (do
      let q ← stackInto q (groupVals m)
      phononLoop fuel rest accum q) := by
  rw [phonon_loop_cons, hm, hp]

theorem phonon_loop_other (fuel : Nat) (line : Str) (rest : List Str) (accum : List (Dict Key PyVal)) (q : Dict Key PyVal)
    (hm : Res.PHONON_RE.match_ line = none) (hp : Res.PROCESS_PHONON_RE.match_ line = none)
    (hr : found REP_MUL_RE line = false) :
    phononLoop (fuel + 1) (line :: rest) accum q = phononLoop fuel rest accum q := by
  have hb : blockOf (found REP_MUL_RE) (found CHAR_END_RE) 1 true line rest = .ok (none, rest) := by
    rw [blockOf, Block.from_re, hr]
    rfl
  rw [phonon_loop_cons, hm, hp]
  dsimp only
  rw [hb]
  rfl

attribute [local irreducible] Res.PHONON_RE Res.PROCESS_PHONON_RE REP_MUL_RE in
/-- The loop over lines without character tables. -/
theorem phonon_loop_entries (accum' : List (Dict Key PyVal)) (q' : Dict Key PyVal) (lines : List Str) :
    ∀ (fuel : Nat) (accum : List (Dict Key PyVal)) (q : Dict Key PyVal) (o : Option Str) (hs : List Str),
    lines.length < fuel → (∀ l ∈ lines, found REP_MUL_RE l = false) → Open q o → List.Forall₂ HasQ accum hs →
    phononLoop fuel lines accum q = .ok (accum', q') →
    ∃ hs' o', List.Forall₂ HasQ accum' hs' ∧ Open q' o' ∧ hs' ++ o'.toList = hs ++ o.toList ++ lines.filterMap headOf := by
  induction lines with
  | nil =>
    intro fuel accum q o hs hf hr ho ha h
    obtain ⟨fuel, rfl⟩ := Nat.exists_eq_succ_of_ne_zero (by simp at hf; omega : fuel ≠ 0)
    rw [Nat.succ_eq_add_one, phonon_loop_nil] at h
    cases h
    exact ⟨hs, o, ha, ho, by simp⟩
  | cons line rest ih =>
    intro fuel accum q o hs hf hr ho ha h
    obtain ⟨fuel, rfl⟩ := Nat.exists_eq_succ_of_ne_zero (by simp at hf; omega : fuel ≠ 0)
    have hf' : rest.length < fuel := by simpa using hf
    have hr' : ∀ l ∈ rest, found REP_MUL_RE l = false := fun l hl => hr l (by simp [hl])
    cases hm : Res.PHONON_RE.match_ line with
    | some m =>
      rw [Nat.succ_eq_add_one, phonon_loop_head _ _ _ _ _ _ hm] at h
      obtain ⟨s, h1, h2, h3⟩ := head_named hm
      obtain ⟨a1, e1, h⟩ := bind_ok h
      obtain ⟨qs, e2, h⟩ := bind_ok h
      rw [grp, h1] at e2
      cases e2
      have ho' : Open [(.str (py"qpt"), .list ((Str.split s).map .str))] (some s) := ⟨rfl, h2⟩
      obtain ⟨hs', o', f1, f2, f3⟩ := ih fuel a1 _ (some s) _ hf' hr' ho' (flush_open ho ha e1) h
      refine ⟨hs', o', f1, f2, ?_⟩
      rw [f3, List.filterMap_cons, h3]
      simp
    | none =>
      have hh : headOf line = none := by rw [headOf, hm]; rfl
      rw [List.filterMap_cons, hh]
      cases hp : Res.PROCESS_PHONON_RE.match_ line with
      | some m =>
        rw [Nat.succ_eq_add_one, phonon_loop_row _ _ _ _ _ _ hm hp] at h
        obtain ⟨q1, e1, h⟩ := bind_ok h
        have ho' : Open q1 o := by
          have := row_keeps hp e1
          cases o with
          | none => exact this.trans ho
          | some s => exact ⟨this.trans ho.1, ho.2⟩
        exact ih fuel accum q1 o hs hf' hr' ho' ha h
      | none =>
        rw [Nat.succ_eq_add_one, phonon_loop_other _ _ _ _ _ hm hp (hr line (by simp))] at h
        exact ih fuel accum q o hs hf' hr' ho ha h

/-- A section without character tables has one entry for every header line. -/
theorem phonon_entries {lines : List Str} {v : PyVal} (hr : ∀ l ∈ lines, found REP_MUL_RE l = false)
    (h : process_phonon lines = .ok v) :
    ∃ ds : List (Dict Key PyVal), v = .list (ds.map .dict) ∧ List.Forall₂ HasQ ds (lines.filterMap headOf) := by
  obtain ⟨⟨accum, q⟩, e1, h⟩ := bind_ok h
  obtain ⟨a2, e2, h⟩ := bind_ok h
  cases h
  obtain ⟨hs', o', f1, f2, f3⟩ := phonon_loop_entries _ _ _ _ _ _ none [] (by omega) hr (show Open [] none from rfl) .nil e1
  refine ⟨a2, rfl, ?_⟩
  have := flush_open f2 f1 e2
  rwa [f3] at this

end Verif.Castep

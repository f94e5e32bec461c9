import Verif.Lemmas.PhononDos
import Verif.Lemmas.Efield
import Verif.Lemmas.NatStr
import Verif.Spec.Phonon
/- `.phonon` files. -/
namespace Verif.Dict

variable {κ α : Type} [DecidableEq κ]

theorem get?_append_right {a b : Dict κ α} {k : κ} (h : k ∉ a.keys) : Dict.get? (a ++ b) k = b.get? k := by
  induction a with
  | nil => rfl
  | cons p a ih =>
    have h1 : ¬ p.1 = k := fun e => h (by simp [keys, e])
    rw [List.cons_append, get?, if_neg h1]
    exact ih fun hk => h (List.mem_cons_of_mem _ hk)

theorem set_append_right {a b : Dict κ α} {k : κ} {v : α} (h : k ∉ a.keys) : Dict.set (a ++ b) k v = a ++ b.set k v := by
  induction a with
  | nil => rfl
  | cons p a ih =>
    have h1 : ¬ p.1 = k := fun e => h (by simp [keys, e])
    rw [List.cons_append, set, if_neg h1, List.cons_append]
    congr 1
    exact ih fun hk => h (List.mem_cons_of_mem _ hk)

end Verif.Dict

namespace Verif.Phonon
open Verif Re Spec

theorem names_qpt : Names QPT_RE (py"q-pt") := names_lit (by decide +kernel)
theorem names_eig : Names EIGENVECTORS_RE (py"Phonon Eigenvectors") := names_lit (by decide +kernel)
theorem names_mode : Names MODE_ION_RE (py"Mode Ion") := names_lit (by decide +kernel)

/-! ### Columns -/

theorem col_keys {k k' : Str} {vs : List PyVal} (h : Key.str k' ∈ Dict.keys (PhPoint.col k vs)) : k' = k := by
  rw [PhPoint.col] at h
  split at h
  · cases h
  · simpa [Dict.keys] using h

/-- A value added to a column. -/
theorem appendTo_col {a c : Dict Key PyVal} {k : Str} {vs : List PyVal} {v : PyVal} (ha : Key.str k ∉ Dict.keys a)
    (hc : vs = [] → c = []) : MdGeom.appendTo (a ++ (PhPoint.col k vs ++ c)) (.str k) v = .ok (a ++ (PhPoint.col k (vs ++ [v]) ++ c)) := by
  have e2 : PhPoint.col k (vs ++ [v]) = [(.str k, .list (vs ++ [v]))] := by rw [PhPoint.col, if_neg (by simp)]
  rw [MdGeom.appendTo, Dict.get?_append_right ha, e2]
  by_cases hv : vs = []
  · have e1 : PhPoint.col k vs = [] := by rw [PhPoint.col, if_pos hv]
    rw [e1, hc hv, hv]
    show Except.ok (Dict.set (a ++ ([] ++ [])) _ _) = _
    rw [Dict.set_append_right ha]; rfl
  · have e1 : PhPoint.col k vs = [(.str k, .list vs)] := by rw [PhPoint.col, if_neg hv]
    rw [e1]
    have e3 : Dict.get? ([(Key.str k, PyVal.list vs)] ++ c) (.str k) = some (.list vs) := by
      show (if Key.str k = .str k then _ else _) = _
      rw [if_pos rfl]
    rw [e3]
    dsimp only
    rw [Dict.set_append_right ha]
    show Except.ok (a ++ (if Key.str k = .str k then _ else _)) = _
    rw [if_pos rfl]; rfl

/-! ### Frequencies -/

theorem floatSlice_of {fl : Numeral → F64} {l : Str} {a b : Nat} {n : Numeral} (h : Fields (column l a b) [n.text])
    (hf : pyFloat n.text = .ok (fl n)) : floatSlice l a b = .ok (.float (fl n)) := by
  obtain ⟨g, s', e, h1, -, h3, h4⟩ := fields_next h
  have hb : Blank s' := blank_of_fields h4.2
  rw [floatSlice]
  show (pyFloat (column l a b) >>= _) = _
  rw [e, pyFloat_pad _ _ _ h1 hb h3, hf]; rfl

theorem optColumn_none {q : Dict Key PyVal} {k l : Str} {a b : Nat} (h : Blank (column l a b)) : optColumn q k l a b = .ok q := by
  rw [optColumn]
  have : Str.strip ((l.take b).drop a) = [] := (strip_nil_iff _).2 h
  rw [this]; rfl

theorem optColumn_some {fl : Numeral → F64} {q : Dict Key PyVal} {k l : Str} {a b : Nat} {n : Numeral} (h : Fields (column l a b) [n.text])
    (hf : pyFloat n.text = .ok (fl n)) : optColumn q k l a b = MdGeom.appendTo q (.str k) (.float (fl n)) := by
  rw [optColumn, if_neg, floatSlice_of h hf]
  · rfl
  · rw [List.isEmpty_iff]
    intro e
    have hb : Blank (column l a b) := (strip_nil_iff _).1 e
    have := fields_unique (fields_blank hb) h
    cases this

/-- The three columns of these branches. -/
def cols (fl : Numeral → F64) (bs : List PhBranch) : Dict Key PyVal :=
  PhPoint.col (py"eigenvalues") (bs.map fun b => .float (fl b.freq)) ++
  (PhPoint.col (py"ir_intensity") (bs.filterMap fun b => b.ir.map fun n => .float (fl n)) ++
  PhPoint.col (py"raman_intensity") (bs.filterMap fun b => b.raman.map fun n => .float (fl n)))

theorem freq_step {fl : Numeral → F64} {base : Dict Key PyVal} {done : List PhBranch} {b : PhBranch} {l : Str} (h : PhBranch.Line l b)
    (hf : ∀ n ∈ b.nums, pyFloat n.text = .ok (fl n))
    (k1 : Key.str (py"eigenvalues") ∉ base.keys) (k2 : Key.str (py"ir_intensity") ∉ base.keys) (k3 : Key.str (py"raman_intensity") ∉ base.keys)
    (u1 : (∀ x ∈ done ++ [b], x.ir = none) ∨ ∀ x ∈ done ++ [b], x.ir ≠ none)
    (u2 : (∀ x ∈ done ++ [b], x.raman = none) ∨ ∀ x ∈ done ++ [b], x.raman ≠ none) (rest : List Str) :
    freqRows (l :: rest) (base ++ cols fl done) = freqRows rest (base ++ cols fl (done ++ [b])) := by
  obtain ⟨h1, h2, h3⟩ := h
  have e1 : MdGeom.appendTo (base ++ cols fl done) (.str (py"eigenvalues")) (.float (fl b.freq)) = .ok (base ++
      (PhPoint.col (py"eigenvalues") ((done ++ [b]).map fun b => .float (fl b.freq)) ++
      (PhPoint.col (py"ir_intensity") (done.filterMap fun b => b.ir.map fun n => .float (fl n)) ++
      PhPoint.col (py"raman_intensity") (done.filterMap fun b => b.raman.map fun n => .float (fl n))))) := by
    rw [cols, appendTo_col k1, List.map_append]; rfl
    intro e
    rw [List.map_eq_nil_iff] at e
    subst e; rfl
  have e2 : optColumn (base ++
      (PhPoint.col (py"eigenvalues") ((done ++ [b]).map fun b => .float (fl b.freq)) ++
      (PhPoint.col (py"ir_intensity") (done.filterMap fun b => b.ir.map fun n => .float (fl n)) ++
      PhPoint.col (py"raman_intensity") (done.filterMap fun b => b.raman.map fun n => .float (fl n))))) (py"ir_intensity") l 31 46 = .ok (base ++
      (PhPoint.col (py"eigenvalues") ((done ++ [b]).map fun b => .float (fl b.freq)) ++
      (PhPoint.col (py"ir_intensity") ((done ++ [b]).filterMap fun b => b.ir.map fun n => .float (fl n)) ++
      PhPoint.col (py"raman_intensity") (done.filterMap fun b => b.raman.map fun n => .float (fl n))))) := by
    cases hb : b.ir with
    | none =>
      rw [hb] at h2
      rw [optColumn_none h2, List.filterMap_append]
      simp [hb]
    | some n =>
      rw [hb] at h2
      rw [optColumn_some h2 (hf n (by simp [PhBranch.nums, hb])), ← List.append_assoc, appendTo_col, List.filterMap_append]
      · simp [hb]
      · intro hk
        rw [Dict.keys, List.map_append, List.mem_append] at hk
        rcases hk with hk | hk
        · exact k2 hk
        · exact absurd (col_keys hk) (by decide)
      · intro e
        have hd : done = [] := by
          rcases u1 with u | u
          · have := u b (by simp); rw [hb] at this; cases this
          · cases done with
            | nil => rfl
            | cons x done =>
              exfalso
              have := u x (by simp)
              obtain ⟨m, hm⟩ := Option.ne_none_iff_exists'.1 this
              simp [hm] at e
        subst hd; rfl
  have e3 : optColumn (base ++
      (PhPoint.col (py"eigenvalues") ((done ++ [b]).map fun b => .float (fl b.freq)) ++
      (PhPoint.col (py"ir_intensity") ((done ++ [b]).filterMap fun b => b.ir.map fun n => .float (fl n)) ++
      PhPoint.col (py"raman_intensity") (done.filterMap fun b => b.raman.map fun n => .float (fl n))))) (py"raman_intensity") l 55 70 =
      .ok (base ++ cols fl (done ++ [b])) := by
    rw [cols]
    cases hb : b.raman with
    | none =>
      rw [hb] at h3
      rw [optColumn_none h3, List.filterMap_append (f := fun b : PhBranch => b.raman.map fun n => PyVal.float (fl n))]
      simp [hb]
    | some n =>
      rw [hb] at h3
      have := appendTo_col (a := base ++ (PhPoint.col (py"eigenvalues") ((done ++ [b]).map fun b => .float (fl b.freq)) ++
        PhPoint.col (py"ir_intensity") ((done ++ [b]).filterMap fun b => b.ir.map fun n => .float (fl n)))) (c := []) (k := py"raman_intensity")
        (vs := done.filterMap fun b => b.raman.map fun n => .float (fl n)) (v := .float (fl n)) (by
          intro hk
          rw [Dict.keys, List.map_append, List.map_append, List.mem_append, List.mem_append] at hk
          rcases hk with hk | hk | hk
          · exact k3 hk
          · exact absurd (col_keys hk) (by decide)
          · exact absurd (col_keys hk) (by decide)) (fun _ => rfl)
      rw [optColumn_some h3 (hf n (by simp [PhBranch.nums, hb])), List.filterMap_append (f := fun b : PhBranch => b.raman.map fun n => PyVal.float (fl n))]
      simp only [List.append_nil, List.append_assoc] at this
      simp only [List.filterMap_cons, hb, Option.map_some, List.filterMap_nil]
      exact this
  rw [freqRows, floatSlice_of h1 (hf _ (by simp [PhBranch.nums]))]
  show (MdGeom.appendTo (base ++ cols fl done) (.str (py"eigenvalues")) (.float (fl b.freq)) >>= _) = _
  rw [e1]
  show (optColumn _ _ _ _ _ >>= _) = _
  rw [e2]
  show (optColumn _ _ _ _ _ >>= _) = _
  rw [e3]
  rfl

theorem freqRows_all {fl : Numeral → F64} {base : Dict Key PyVal} {rows : List Str} {bs : List PhBranch} (h : List.Forall₂ PhBranch.Line rows bs)
    (hf : ∀ b ∈ bs, ∀ n ∈ b.nums, pyFloat n.text = .ok (fl n))
    (k1 : Key.str (py"eigenvalues") ∉ base.keys) (k2 : Key.str (py"ir_intensity") ∉ base.keys) (k3 : Key.str (py"raman_intensity") ∉ base.keys) :
    ∀ done : List PhBranch, ((∀ x ∈ done ++ bs, x.ir = none) ∨ ∀ x ∈ done ++ bs, x.ir ≠ none) →
    ((∀ x ∈ done ++ bs, x.raman = none) ∨ ∀ x ∈ done ++ bs, x.raman ≠ none) →
    freqRows rows (base ++ cols fl done) = .ok (base ++ cols fl (done ++ bs)) := by
  induction h with
  | nil => intro done _ _; rw [List.append_nil]; rfl
  | @cons l b rows bs h1 _ ih =>
    intro done u1 u2
    have sub : ∀ x ∈ done ++ [b], x ∈ done ++ b :: bs := by
      intro x hx; simp only [List.mem_append, List.mem_cons, List.not_mem_nil, or_false] at hx ⊢; tauto
    rw [freq_step h1 (hf b (by simp)) k1 k2 k3 (u1.imp (fun u x hx => u x (sub x hx)) fun u x hx => u x (sub x hx))
      (u2.imp (fun u x hx => u x (sub x hx)) fun u x hx => u x (sub x hx)),
      ih (fun b hb => hf b (by simp [hb])) (done ++ [b]) (by simpa using u1) (by simpa using u2)]
    simp

/-! ### Vectors -/

theorem complexPairs_of (rd : Numeral → F64) : ∀ r : List (Numeral × Numeral),
    complexPairs ((r.flatMap fun p => [p.1, p.2]).map fun n => .float (rd n)) = .ok (r.map fun z => .complex (rd z.1) (rd z.2))
  | [] => rfl
  | z :: r => by
    show complexPairs (.float (rd z.1) :: .float (rd z.2) :: (r.flatMap fun p => [p.1, p.2]).map fun n => .float (rd n)) = _
    rw [complexPairs, complexPairs_of rd r]; rfl

theorem eigenRow_of {rd : Numeral → F64} {l : Str} {r : List (Numeral × Numeral)} (h : VecLine l r)
    (hr : ∀ z ∈ r, parse_float_or_rational z.1.text = .ok (rd z.1) ∧ parse_float_or_rational z.2.text = .ok (rd z.2)) :
    eigenRow l = .ok (.tuple (r.map fun z => .complex (rd z.1) (rd z.2))) := by
  obtain ⟨a, b, hf⟩ := h
  have e : (r.flatMap fun p => [p.1.text, p.2.text]) = (r.flatMap fun p => [p.1, p.2]).map Numeral.text := by
    rw [List.map_flatMap]; rfl
  have ht := to_type_strList .float (r.flatMap fun p => [p.1, p.2]) Numeral.text (fun n => .float (rd n)) (by
    intro n hn
    obtain ⟨z, hz, hn⟩ := List.mem_flatMap.1 hn
    have := hr z hz
    simp only [List.mem_cons, List.not_mem_nil, or_false] at hn
    rcases hn with rfl | rfl
    · exact typeParser_float this.1
    · exact typeParser_float this.2)
  rw [eigenRow, fields_split hf]
  dsimp only
  rw [e, ht]
  show complexTuple (.tuple _) = _
  rw [complexTuple, complexPairs_of]; rfl

theorem eigenRows_all {rd : Numeral → F64} {base : Dict Key PyVal} {rows : List Str} {rs : List (List (Numeral × Numeral))}
    (h : List.Forall₂ VecLine rows rs)
    (hr : ∀ r ∈ rs, ∀ z ∈ r, parse_float_or_rational z.1.text = .ok (rd z.1) ∧ parse_float_or_rational z.2.text = .ok (rd z.2))
    (k : Key.str (py"eigenvectors") ∉ base.keys) : ∀ done : List PyVal,
    eigenRows rows (base ++ PhPoint.col (py"eigenvectors") done) =
      .ok (base ++ PhPoint.col (py"eigenvectors") (done ++ rs.map fun r => .tuple (r.map fun z => .complex (rd z.1) (rd z.2)))) := by
  induction h with
  | nil => intro done; rw [List.map_nil, List.append_nil]; rfl
  | @cons l r rows rs h1 _ ih =>
    intro done
    have := appendTo_col (a := base) (c := []) (k := py"eigenvectors") (vs := done) (v := .tuple (r.map fun z => .complex (rd z.1) (rd z.2))) k
      (fun _ => rfl)
    rw [List.append_nil, List.append_nil] at this
    rw [eigenRows, eigenRow_of h1 (hr r (by simp))]
    show (MdGeom.appendTo _ _ _ >>= _) = _
    rw [this]
    show eigenRows rows _ = _
    rw [ih (fun r hr' => hr r (by simp [hr'])) _]
    simp

/-! ### The q-point -/

/-- The line of the q-point. -/
def qbase (rd fl : Numeral → F64) (p : PhPoint) : Dict Key PyVal :=
  [(.str (py"qpt"), .tuple (p.q.map fun n => .float (rd n))), (.str (py"weight"), .float (fl p.weight))] ++
    (if p.dir = [] then [] else [(.str (py"dir"), .tuple (p.dir.map fun n => .float (rd n)))])

theorem qpoint_of {rd fl : Numeral → F64} {p : PhPoint} {l : Str} (hl : ∃ a b, Fields l (a :: b :: (p.q ++ p.weight :: p.dir).map Numeral.text))
    (h3 : p.q.length = 3) (hr : ∀ n ∈ p.q ++ p.dir, parse_float_or_rational n.text = .ok (rd n)) (hw : pyFloat p.weight.text = .ok (fl p.weight)) :
    qpoint l = .ok (qbase rd fl p) := by
  obtain ⟨a, b, hf⟩ := hl
  have hf' := fields_split hf
  rw [qbase]
  generalize hq : p.q = q at *
  generalize hd : p.dir = dir at *
  obtain ⟨x, y, z, rfl⟩ := List.length_eq_three.1 h3
  have e1 := to_type_strList .float [x, y, z] Numeral.text (fun n => .float (rd n)) fun n hn => typeParser_float (hr n (by
    rw [List.mem_append]; exact .inl hn))
  have e2 := to_type_strList .float dir Numeral.text (fun n => .float (rd n)) fun n hn => typeParser_float (hr n (by
    rw [List.mem_append]; exact .inr hn))
  rw [qpoint, hf']
  show (to_type .float (strList ([x, y, z].map Numeral.text)) >>= fun q => pyFloat p.weight.text >>= fun wt =>
    if (dir.map Numeral.text).isEmpty then pure [(Key.str (py"qpt"), q), (Key.str (py"weight"), PyVal.float wt)]
    else to_type .float (strList (dir.map Numeral.text)) >>= fun v =>
      pure (Dict.set [(Key.str (py"qpt"), q), (Key.str (py"weight"), PyVal.float wt)] (Key.str (py"dir")) v)) = _
  rw [e1, hw]
  show (if (dir.map Numeral.text).isEmpty then _ else _) = _
  cases dir with
  | nil => rfl
  | cons d dir =>
    rw [e2]; rfl

theorem slice11 {first last : Str} {inner : List Str} : Block.sliceBounds (first :: (inner ++ [last])) 1 1 = inner := by
  rw [Block.sliceBounds, if_neg (by decide)]; simp

theorem slice10 {first : Str} {inner : List Str} : Block.sliceBounds (first :: inner) 1 0 = inner := by
  rw [Block.sliceBounds, if_pos rfl]; rfl

theorem forall₂_len {R : α → β → Prop} {a : List α} {b : List β} (h : List.Forall₂ R a b) : a.length = b.length := by
  induction h with
  | nil => rfl
  | cons _ _ ih => simp [ih]

theorem qbase_keys {rd fl : Numeral → F64} {p : PhPoint} {k : Str} (h : Key.str k ∈ (qbase rd fl p).keys) :
    k = py"qpt" ∨ k = py"weight" ∨ k = py"dir" := by
  rw [qbase, Dict.keys, List.map_append, List.mem_append] at h
  rcases h with h | h
  · simp only [List.map_cons, List.map_nil, List.mem_cons, List.not_mem_nil, or_false, Key.str.injEq] at h
    tauto
  · split at h
    · cases h
    · simp only [List.map_cons, List.map_nil, List.mem_cons, List.not_mem_nil, or_false, Key.str.injEq] at h
      tauto

theorem cols_keys {fl : Numeral → F64} {bs : List PhBranch} {k : Str} (h : Key.str k ∈ (cols fl bs).keys) :
    k = py"eigenvalues" ∨ k = py"ir_intensity" ∨ k = py"raman_intensity" := by
  rw [cols, Dict.keys, List.map_append, List.map_append, List.mem_append, List.mem_append] at h
  rcases h with h | h | h
  · exact .inl (col_keys h)
  · exact .inr (.inl (col_keys h))
  · exact .inr (.inr (col_keys h))

/-! ### The header -/

theorem get?_erase_ne {d : Dict Key PyVal} {k k' : Key} (h : k' ≠ k) : (d.erase k).get? k' = d.get? k' := by
  induction d with
  | nil => rfl
  | cons p d ih =>
    rw [Dict.erase]
    split
    · rename_i e
      rw [Dict.get?, if_neg (by rw [e]; exact h.symm)]
    · rw [Dict.get?, Dict.get?, ih]

theorem nodup_ofList (l : List (Key × PyVal)) : (Dict.ofList l).keys.Nodup := by
  have : ∀ (l : List (Key × PyVal)) (d : Dict Key PyVal), d.keys.Nodup → (l.foldl (fun d kv => d.set kv.1 kv.2) d).keys.Nodup := by
    intro l
    induction l with
    | nil => intro d h; exact h
    | cons p l ih => intro d h; exact ih _ (Dict.nodup_set _ _ _ h)
  exact this l [] List.nodup_nil

theorem update_nil {d : Dict Key PyVal} (h : d.keys.Nodup) : updateDict [] d = d := Dict.ofList_nodup d h

theorem header_nodup (rd : Numeral → F64) (items : List HeadItem) : (headerOf [] rd items).keys.Nodup :=
  Dict.nodup_set _ _ _ (nodup_ofList _)

theorem ofList_append (a b : List (Key × PyVal)) : Dict.ofList (a ++ b) = updateDict (Dict.ofList a) b := by
  rw [Dict.ofList, List.foldl_append]; rfl

theorem header_count {rd : Numeral → F64} {name : Str} (h1 : name ≠ py"unit_cell") (h2 : name ≠ []) (h3 : name ≠ py"coords") (items : List HeadItem) :
    ((headerOf [] rd items).erase (.str [])).get? (.str name) = (countOf name items).map .int := by
  have key : (Dict.ofList (items.flatMap (HeadItem.entries [] rd))).get? (.str name) = (countOf name items).map .int := by
    induction items using List.reverseRecOn with
    | nil => rfl
    | append_singleton items i ih =>
      rw [List.flatMap_append, ofList_append, countOf, List.filterMap_append, List.getLast?_append]
      cases i with
      | count k n =>
        show Dict.get? (Dict.set _ (Key.str (Str.join (py" ") k)) (PyVal.int (intOf n))) _ = _
        rw [Dict.get?_set]
        by_cases e : Str.join (py" ") k = name
        · rw [if_pos (by rw [e])]; simp [e]
        · rw [if_neg (by simpa using e), ih]; simp [e, countOf]
      | cell rows =>
        show Dict.get? (Dict.set _ (Key.str (py"unit_cell")) _) _ = _
        rw [Dict.get?_set, if_neg (by simpa using h1.symm), ih]; simp [countOf]
      | ion p => exact ih.trans (by simp [countOf])
      | note hit nums =>
        cases hit with
        | false => exact ih.trans (by simp [countOf])
        | true =>
          show Dict.get? (Dict.set _ (Key.str []) _) _ = _
          rw [Dict.get?_set, if_neg (by simpa using h2.symm), ih]; simp [countOf]
  rw [get?_erase_ne (by simpa using h2), headerOf, Dict.get?_set, if_neg (by simpa using h3.symm), key]

theorem header_note {rd : Numeral → F64} {items : List HeadItem} {nums : List Numeral} (h : HeadItem.note true nums ∈ items) :
    (headerOf [] rd items).mem (.str []) = true := by
  have key : Key.str [] ∈ (Dict.ofList (items.flatMap (HeadItem.entries [] rd))).keys := by
    have : ∀ (l : List (Key × PyVal)) (d : Dict Key PyVal), (Key.str [] ∈ d.keys ∨ ∃ q ∈ l, q.1 = .str []) →
        Key.str [] ∈ (l.foldl (fun d kv => d.set kv.1 kv.2) d).keys := by
      intro l
      induction l with
      | nil =>
        rintro d (h | ⟨q, hq, -⟩)
        · exact h
        · cases hq
      | cons p l ih =>
        rintro d (h | ⟨q, hq, e⟩)
        · exact ih _ (.inl ((Dict.mem_keys_set _ _ _ _).2 (.inr h)))
        · rcases List.mem_cons.1 hq with rfl | hq
          · exact ih _ (.inl ((Dict.mem_keys_set _ _ _ _).2 (.inl e.symm)))
          · exact ih _ (.inr ⟨q, hq, e⟩)
    refine this _ _ (.inr ?_)
    refine ⟨(.str [], .tuple (nums.map fun n => .float (rd n))), List.mem_flatMap.2 ⟨_, h, ?_⟩, rfl⟩
    simp [HeadItem.entries]
  rw [Dict.mem, Option.isSome_iff_ne_none, ne_eq, Dict.get?_eq_none, not_not, headerOf]
  exact (Dict.mem_keys_set _ _ _ _).2 (.inr key)

theorem format4_of {d : Dict Key PyVal} {k : Str} {n : Nat} (h : d.get? (.str k) = some (.int n)) : format4 d k = .ok (right4 (natStr n)) := by
  rw [format4, h]; rfl

theorem count_of {d : Dict Key PyVal} {k : Str} {n : Int} (h : d.get? (.str k) = some (.int n)) : count d k = some n := by
  rw [count, h]

/-- What holds after the header. -/
structure Good (B N : Nat) (s : State) : Prop where
  mark : s.endblock = some (lastMark B N)
  branches : s.info.get? (.str (py"branches")) = some (.int B)
  ions : s.info.get? (.str (py"ions")) = some (.int N)
  qpts : ListAt s.info (py"qpts")

theorem header_of {B N : Nat} {rd : Numeral → F64} {items : List HeadItem} {b : Block} (hb : parse_regular_header NO_EXTRA_RE b.rest = .ok (headerOf [] rd items))
    (hh : PhHead B N items) :
    header {} b = .ok { info := (headerOf [] rd items).erase (.str []), endblock := some (lastMark B N) } ∧
    Good B N { info := (headerOf [] rd items).erase (.str []), endblock := some (lastMark B N) } := by
  obtain ⟨c1, c2, ⟨nums, hn⟩, hk, -⟩ := hh
  have e1 := header_count (rd := rd) (name := py"branches") (by decide) (by decide) (by decide) items
  have e2 := header_count (rd := rd) (name := py"ions") (by decide) (by decide) (by decide) items
  rw [c1] at e1
  rw [c2] at e2
  constructor
  · rw [header, hb]
    show (popEmpty (updateDict [] (headerOf [] rd items)) >>= _) = _
    rw [update_nil (header_nodup _ _), popEmpty, if_pos (header_note hn)]
    show (format4 _ _ >>= _) = _
    rw [format4_of e1]
    show (format4 _ _ >>= _) = _
    rw [format4_of e2]; rfl
  · refine ⟨rfl, e1, e2, .inl ?_⟩
    show Dict.get? (Dict.erase _ _) _ = _
    rw [get?_erase_ne (by decide), Dict.get?_eq_none]
    intro hm
    obtain ⟨p, hp, e⟩ := List.mem_map.1 hm
    exact Efield.header_keys (opt := []) (k := py"qpts") (by decide) (by decide) (by decide) (fun i hi key n e => (hk i hi key n e).1) p hp e

/-! ### The loop -/

theorem appendTo_addAll {d : Dict Key PyVal} {k : Str} {v : PyVal} (h : ListAt d k) : MdGeom.appendTo d (.str k) v = .ok (addAll d k [v]) := by
  rw [MdGeom.appendTo, addAll, if_neg (by simp)]
  rcases h with h | ⟨l, h⟩ <;> rw [h]

theorem addAll_addAll {d : Dict Key PyVal} {k : Str} {a b : List PyVal} (h : ListAt d k) : addAll (addAll d k a) k b = addAll d k (a ++ b) := by
  by_cases ha : a = []
  · subst ha; rfl
  by_cases hb : b = []
  · subst hb; rw [List.append_nil]; rfl
  rcases h with h | ⟨l, h⟩
  · simp only [addAll, if_neg ha, if_neg hb, h, Dict.get?_set_self, List.append_eq_nil_iff, and_self, if_false, ha, false_and]
    rw [Dos.set_set]
  · simp only [addAll, if_neg ha, if_neg hb, h, Dict.get?_set_self, List.append_eq_nil_iff, and_self, if_false, ha, false_and]
    rw [Dos.set_set, List.append_assoc]

theorem loop_cons (fuel : Nat) (line : Str) (rest : List Str) (s : State) :
    loop (fuel + 1) (line :: rest) s = (do
    match ← tryBlock (found BEGIN_HEADER_RE) (found END_HEADER_RE) line rest with
    | (some b, rest) => do
      let s ← header s b
      loop fuel rest s
    | (none, rest) => do
      match ← tryBlock (found QPT_RE) (found EIGENVECTORS_RE) line rest with
      | (some b, rest) => do
        let s ← frequencies s line b
        loop fuel rest s
      | (none, rest) => do
        let (s, rest) ← modes s line rest
        loop fuel rest s) := rfl

theorem occurs_contains {s l : Str} : Str.contains s l = true ↔ Occurs s l := Str.contains_iff _ _

theorem point_steps {B N : Nat} {rd fl : Numeral → F64} {p : PhPoint} {l rest : List Str} {s : State} (hs : Good B N s)
    (hp : p.Lines B N l) (hok : p.Ok B N) (hr : ∀ n ∈ p.nums, parse_float_or_rational n.text = .ok (rd n) ∧ pyFloat n.text = .ok (fl n)) (fuel : Nat) :
    ∃ q, loop (fuel + 2) (l ++ rest) s = loop fuel rest { s with
      info := addAll s.info (py"qpts") [p.entry rd fl]
      qdata := some q } := by
  obtain ⟨qline, rows, title, mline, vrows, rfl, h1, h2, h3, h4, h5, h6, h7, h8, h9, h10, init, last, rfl, h11, h12⟩ := hp
  obtain ⟨o1, -, o3, o4, o5, o6⟩ := hok
  have l1 := forall₂_len h4
  have l2 := forall₂_len h10
  have n1 : qpoint qline = .ok (qbase rd fl p) := qpoint_of h3 o1 (fun n hn => (hr n (by
    simp only [PhPoint.nums, List.mem_append, List.mem_cons] at hn ⊢; tauto)).1) (hr _ (by simp [PhPoint.nums])).2
  have n2 := freqRows_all (fl := fl) (base := qbase rd fl p) h4 (fun b hb n hn => (hr n (by
    simp only [PhPoint.nums, List.mem_append, List.mem_cons]
    exact .inr (.inr (.inr (.inl (List.mem_flatMap.2 ⟨b, hb, hn⟩)))))).2)
    (fun hk => by rcases qbase_keys hk with h | h | h <;> exact absurd h (by decide))
    (fun hk => by rcases qbase_keys hk with h | h | h <;> exact absurd h (by decide))
    (fun hk => by rcases qbase_keys hk with h | h | h <;> exact absurd h (by decide)) [] o5 o6
  have n3 := eigenRows_all (rd := rd) (base := qbase rd fl p ++ cols fl p.branches) h10 (fun r hr' z hz => by
    have hz' : ∀ n ∈ [z.1, z.2], n ∈ p.nums := by
      intro n hn
      simp only [PhPoint.nums, List.mem_append, List.mem_cons]
      exact .inr (.inr (.inr (.inr (List.mem_flatMap.2 ⟨z, List.mem_flatten.2 ⟨r, hr', hz⟩, hn⟩))))
    exact ⟨(hr _ (hz' _ (by simp))).1, (hr _ (hz' _ (by simp))).1⟩) (by
    intro hk
    rw [Dict.keys, List.map_append, List.mem_append] at hk
    rcases hk with hk | hk
    · rcases qbase_keys hk with h | h | h <;> exact absurd h (by decide)
    · rcases cols_keys hk with h | h | h <;> exact absurd h (by decide)) []
  have e0 : (qline :: (rows ++ title :: mline :: (init ++ [last]))) ++ rest = qline :: (rows ++ title :: (mline :: (init ++ last :: rest))) := by simp
  refine ⟨qbase rd fl p ++ cols fl p.branches ++
    PhPoint.col (py"eigenvectors") (p.vecs.map fun r => .tuple (r.map fun z => .complex (rd z.1) (rd z.2))), ?_⟩
  rw [e0, loop_cons, tryBlock_miss Efield.names_bh h2]
  show (tryBlock _ _ _ _ >>= _) = _
  rw [tryBlock_enclosed names_qpt names_eig (c := 113) (by decide) (by decide) h1 h5 h6]
  show (frequencies s qline ⟨0, 0, qline :: (rows ++ [title])⟩ >>= fun s => loop (fuel + 1) _ s) = _
  have f1 : frequencies s qline ⟨0, 0, qline :: (rows ++ [title])⟩ = .ok { s with qdata := some (qbase rd fl p ++ cols fl p.branches) } := by
    rw [frequencies, n1]
    show (if count s.info (py"branches") ≠ _ then _ else (freqRows (Block.sliceBounds (qline :: (rows ++ [title])) 1 1) _ >>= _)) = _
    rw [count_of hs.branches, slice11, if_neg]
    · rw [show cols fl [] = [] from rfl, List.append_nil] at n2
      rw [n2]; rfl
    · simp only [List.length_cons, List.length_append, List.length_nil, ne_eq, not_not, Option.some.injEq]
      rw [l1, o3]; push_cast; omega
  rw [f1]
  show loop (fuel + 1) (mline :: (init ++ last :: rest)) _ = _
  rw [loop_cons, tryBlock_miss Efield.names_bh h8]
  show (tryBlock _ _ _ _ >>= _) = _
  rw [tryBlock_miss names_qpt h9]
  show (modes _ _ _ >>= _) = _
  have f2 : eigenvectors { s with qdata := some (qbase rd fl p ++ cols fl p.branches) } ⟨0, 0, mline :: (init ++ [last])⟩ = .ok { s with
      info := addAll s.info (py"qpts") [p.entry rd fl]
      qdata := some (qbase rd fl p ++ cols fl p.branches ++
        PhPoint.col (py"eigenvectors") (p.vecs.map fun r => .tuple (r.map fun z => .complex (rd z.1) (rd z.2)))) } := by
    rw [eigenvectors, if_neg]
    · dsimp only
      rw [slice10]
      rw [show PhPoint.col (py"eigenvectors") [] = [] from rfl, List.append_nil] at n3
      rw [n3]
      show (MdGeom.appendTo s.info (.str (py"qpts")) _ >>= _) = _
      rw [appendTo_addAll hs.qpts]
      have : PyVal.dict (qbase rd fl p ++ cols fl p.branches ++
          PhPoint.col (py"eigenvectors") ([] ++ p.vecs.map fun r => .tuple (r.map fun z => .complex (rd z.1) (rd z.2)))) = p.entry rd fl := by
        rw [PhPoint.entry, qbase, cols]; simp only [List.append_assoc, List.nil_append]
      rw [this]; rfl
    · have : expected s.info = some ((B : Int) * N) := by rw [expected, count_of hs.branches, count_of hs.ions]
      simp only [this, List.length_cons, List.length_append, List.length_nil, ne_eq, not_not, Option.some.injEq]
      rw [List.length_append, o4] at l2
      simp only [List.length_cons, List.length_nil] at l2
      push_cast; rw [← Nat.cast_mul, ← l2]; push_cast; omega
  have f3 : modes { s with qdata := some (qbase rd fl p ++ cols fl p.branches) } mline (init ++ last :: rest) = .ok ({ s with
      info := addAll s.info (py"qpts") [p.entry rd fl]
      qdata := some (qbase rd fl p ++ cols fl p.branches ++
        PhPoint.col (py"eigenvectors") (p.vecs.map fun r => .tuple (r.map fun z => .complex (rd z.1) (rd z.2)))) }, rest) := by
   rw [modes]
   dsimp only
   rw [hs.mark]
   show (tryBlock (found MODE_ION_RE) (Str.contains (lastMark B N)) mline (init ++ last :: rest) >>= _) = _
   rw [tryBlock_lines _ _ _ _ _ _ _ ((names_mode _).2 h7) (fun l hl => by
    rw [← Bool.not_eq_true, occurs_contains]; exact h12 l hl) (occurs_contains.2 h11) (strip_occurs h7 (c := 77) (by decide) (by decide))]
   show (eigenvectors _ ⟨0, 0, mline :: (init ++ [last])⟩ >>= fun s => pure (s, rest)) = _
   rw [hs.mark] at f2
   rw [f2]; rfl
  rw [f3]; rfl

theorem good_next {B N : Nat} {s : State} {vs : List PyVal} {q} (h : Good B N s) :
    Good B N { s with
      info := addAll s.info (py"qpts") vs
      qdata := q } := by
  have key : ∀ k : Str, k ≠ py"qpts" → (addAll s.info (py"qpts") vs).get? (.str k) = s.info.get? (.str k) := by
    intro k hk
    rw [addAll]
    split
    · rfl
    · split <;> rw [Dict.get?_set_ne _ _ _ _ (by simpa using hk)]
  exact ⟨h.mark, (key _ (by decide)).trans h.branches, (key _ (by decide)).trans h.ions, Dos.addAll_listAt h.qpts⟩

theorem loop_parts {B N : Nat} {rd fl : Numeral → F64} {parts : List PhPart} {ls : List (List Str)} (h : List.Forall₂ (PhPart.Lines B N) parts ls)
    (hok : ∀ p ∈ pointsOf parts, p.Ok B N)
    (hr : ∀ p ∈ pointsOf parts, ∀ n ∈ p.nums, parse_float_or_rational n.text = .ok (rd n) ∧ pyFloat n.text = .ok (fl n)) :
    ∀ (s : State) (fuel : Nat), Good B N s → ls.flatten.length < fuel →
      ∃ q, loop fuel ls.flatten s = .ok { s with
        info := addAll s.info (py"qpts") ((pointsOf parts).map (PhPoint.entry rd fl))
        qdata := q } := by
  induction h with
  | nil =>
    intro s fuel _ hf
    cases fuel with
    | zero => simp at hf
    | succ fuel => exact ⟨s.qdata, rfl⟩
  | @cons p l parts ls hp _ ih =>
    intro s fuel hs hf
    rw [List.flatten_cons, List.length_append] at hf
    rw [List.flatten_cons]
    cases p with
    | point p =>
      have hl : 2 ≤ l.length := by
        obtain ⟨qline, rows, title, mline, vrows, rfl, -⟩ := hp
        simp; omega
      obtain ⟨fuel, rfl⟩ : ∃ f, fuel = f + 2 := ⟨fuel - 2, by omega⟩
      have hm : p ∈ pointsOf (.point p :: parts) := by simp [pointsOf]
      obtain ⟨q, e⟩ := point_steps (rest := ls.flatten) hs hp (hok p hm) (hr p hm) fuel
      obtain ⟨q', e'⟩ := ih (fun p hp => hok p (by simp only [pointsOf, List.filterMap_cons, List.mem_cons] at hp ⊢; exact .inr hp))
        (fun p hp => hr p (by simp only [pointsOf, List.filterMap_cons, List.mem_cons] at hp ⊢; exact .inr hp)) _ fuel
        (good_next (vs := [p.entry rd fl]) (q := some q) hs) (by omega)
      refine ⟨q', ?_⟩
      rw [e, e']
      dsimp only
      rw [addAll_addAll hs.qpts]
      rfl
    | other =>
      obtain ⟨hn, hlen⟩ := hp
      obtain ⟨x, rfl⟩ := List.length_eq_one_iff.1 hlen
      have m1 : ¬ Occurs (py"BEGIN header") x := hn _ (by simp) x rfl
      have m2 : ¬ Occurs (py"q-pt") x := hn _ (by simp) x rfl
      have m3 : ¬ Occurs (py"Mode Ion") x := hn _ (by simp) x rfl
      rw [hlen] at hf
      obtain ⟨fuel, rfl⟩ : ∃ f, fuel = f + 1 := ⟨fuel - 1, by omega⟩
      rw [List.cons_append, List.nil_append, loop_cons, tryBlock_miss Efield.names_bh m1]
      show ∃ q, (tryBlock _ _ _ _ >>= _) = _
      rw [tryBlock_miss names_qpt m2]
      show ∃ q, (modes _ _ _ >>= _) = _
      have em : modes s x ls.flatten = .ok (s, ls.flatten) := by
        rw [modes, hs.mark]
        show (tryBlock _ _ _ _ >>= _) = _
        rw [tryBlock_none _ _ _ _ _ (names_mode.false m3)]
        rfl
      rw [em]
      exact ih (fun p hp => hok p hp) (fun p hp => hr p hp) s fuel hs (by omega)

theorem after_header {B N : Nat} {rd : Numeral → F64} {items : List HeadItem} {hl : List Str} (hh : HeaderLines [] items hl) (hi : PhHead B N items)
    (hr : ∀ i ∈ items, ∀ n ∈ i.nums, parse_float_or_rational n.text = .ok (rd n)) :
    hl ≠ [] ∧ ∃ s : State, s.info = (headerOf [] rd items).erase (.str []) ∧ Good B N s ∧
      ∀ rest fuel, loop (fuel + 1) (hl ++ rest) {} = loop fuel rest s := by
  obtain ⟨⟨inner, first, last, hl, h1, h2, h3⟩, ps, hps, hfl⟩ := hh
  refine ⟨by rw [hl]; simp, ?_⟩
  have hb := regular_header NO_EXTRA_RE [] (looks_lit _ _ (by decide +kernel)) rd items ps hps hr
  rw [← hfl, hl] at hb
  obtain ⟨e, hg⟩ := header_of (b := ⟨0, 0, first :: (inner ++ [last])⟩) hb hi
  refine ⟨_, rfl, hg, fun rest fuel => ?_⟩
  rw [hl, List.cons_append, List.append_assoc, loop_cons, show [last] ++ rest = last :: rest from rfl,
    tryBlock_enclosed Efield.names_bh Efield.names_eh (c := 66) (by decide) (by decide) h1 h2 h3]
  show (header {} ⟨0, 0, first :: (inner ++ [last])⟩ >>= fun s => loop fuel rest s) = _
  rw [e]; rfl

/-! ### Wrong numbers of lines -/

theorem frequencies_wrong {B N : Nat} {s : State} (hs : Good B N s) {qline title : Str} {rows rest : List Str} (h1 : Occurs (py"q-pt") qline)
    (h2 : ¬ Occurs (py"BEGIN header") qline) (h3 : ∀ l ∈ rows, ¬ Occurs (py"Phonon Eigenvectors") l) (h4 : Occurs (py"Phonon Eigenvectors") title)
    (hn : rows.length ≠ B) {q : Dict Key PyVal} (hq : qpoint qline = .ok q) (fuel : Nat) :
    loop (fuel + 1) (qline :: (rows ++ title :: rest)) s = .error .valueError := by
  rw [loop_cons, tryBlock_miss Efield.names_bh h2]
  show (tryBlock _ _ _ _ >>= _) = _
  rw [tryBlock_enclosed names_qpt names_eig (c := 113) (by decide) (by decide) h1 h3 h4]
  show (frequencies s qline ⟨0, 0, qline :: (rows ++ [title])⟩ >>= _) = _
  have : frequencies s qline ⟨0, 0, qline :: (rows ++ [title])⟩ = .error .valueError := by
    rw [frequencies, hq]
    show (if count s.info (py"branches") ≠ _ then _ else _) = _
    rw [count_of hs.branches, if_pos]
    simp only [List.length_cons, List.length_append, List.length_nil, ne_eq, Option.some.injEq]
    push_cast; omega
  rw [this]; rfl

theorem eigenvectors_wrong {B N : Nat} {s : State} (hs : Good B N s) {mline : Str} {init rest : List Str} {last : Str}
    (h7 : Occurs (py"Mode Ion") mline) (h8 : ¬ Occurs (py"BEGIN header") mline) (h9 : ¬ Occurs (py"q-pt") mline)
    (h11 : Occurs (lastMark B N) last) (h12 : ∀ l ∈ init, ¬ Occurs (lastMark B N) l) (hn : init.length + 1 ≠ B * N) (fuel : Nat) :
    loop (fuel + 1) (mline :: (init ++ last :: rest)) s = .error .valueError := by
  rw [loop_cons, tryBlock_miss Efield.names_bh h8]
  show (tryBlock _ _ _ _ >>= _) = _
  rw [tryBlock_miss names_qpt h9]
  show (modes _ _ _ >>= _) = _
  have : modes s mline (init ++ last :: rest) = .error .valueError := by
    rw [modes, hs.mark]
    show (tryBlock (found MODE_ION_RE) (Str.contains (lastMark B N)) mline (init ++ last :: rest) >>= _) = _
    rw [tryBlock_lines _ _ _ _ _ _ _ ((names_mode _).2 h7) (fun l hl => by
      rw [← Bool.not_eq_true, occurs_contains]; exact h12 l hl) (occurs_contains.2 h11) (strip_occurs h7 (c := 77) (by decide) (by decide))]
    show (eigenvectors _ ⟨0, 0, mline :: (init ++ [last])⟩ >>= fun s => pure (s, rest)) = _
    rw [eigenvectors, if_pos]
    · rfl
    · have : expected s.info = some ((B : Int) * N) := by rw [expected, count_of hs.branches, count_of hs.ions]
      simp only [this, List.length_cons, List.length_append, List.length_nil, ne_eq, Option.some.injEq]
      intro e
      apply hn
      have : (B * N : Int) = init.length + 1 := by rw [e]; push_cast; omega
      exact_mod_cast this.symm
  rw [this]; rfl

theorem before_header {x : Str} {rest : List Str} {s : State} (hs : s.endblock = none) (m1 : ¬ Occurs (py"BEGIN header") x) (m2 : ¬ Occurs (py"q-pt") x)
    (fuel : Nat) : loop (fuel + 1) (x :: rest) s = .error .nameError := by
  rw [loop_cons, tryBlock_miss Efield.names_bh m1]
  show (tryBlock _ _ _ _ >>= _) = _
  rw [tryBlock_miss names_qpt m2]
  show (modes _ _ _ >>= _) = _
  rw [modes, hs]; rfl

/-! ### The last line -/

theorem digitsVal_append (a b : Str) : digitsVal a ≤ digitsVal (a ++ b) := by
  induction b using List.reverseRecOn with
  | nil => rw [List.append_nil]
  | append_singleton b c ih =>
    rw [← List.append_assoc]
    have : digitsVal (a ++ b ++ [c]) = digitsVal (a ++ b) * 10 + (c - 48) := by rw [digitsVal, List.foldl_append]; rfl
    omega

theorem natStr_length {n : Nat} (h : n < 1000) : (natStr n).length < 4 := by
  have : ∀ m < 1000, (natStr m).length < 4 := by decide +kernel
  exact this n h

theorem right4_gap {n : Nat} (h : n < 1000) : ∃ g, right4 (natStr n) = g ++ natStr n ∧ Blank g ∧ g ≠ [] := by
  refine ⟨_, rfl, fun c hc => ?_, ?_⟩
  · rw [List.mem_replicate] at hc; rw [hc.2]; rfl
  · have := natStr_length h
    rw [ne_eq, List.replicate_eq_nil_iff]; omega

theorem natStr_nospace (n : Nat) : ∀ c ∈ natStr n, isSpace c = false := by
  intro c hc
  have := (natStr_spec n).2.1 c hc
  have h : ∀ c ∈ List.range' 48 10, isSpace c = false := by decide +kernel
  exact h c (by rw [List.mem_range'_1]; omega)

/-- A line with the mark has a word that is the number of branches, and after it one that starts with the number of ions. -/
theorem mark_words {B N : Nat} (hB : B < 1000) (hN : N < 1000) {l : Str} {ws : List Str} (h : Occurs (lastMark B N) l) (hf : Fields l ws) :
    ∃ a w b, ws = a ++ natStr B :: w :: b ∧ natStr N <+: w := by
  obtain ⟨u, v, rfl⟩ := h
  obtain ⟨g1, e1, b1, n1⟩ := right4_gap hB
  obtain ⟨g2, e2, b2, n2⟩ := right4_gap hN
  obtain ⟨w, b, hw, hp⟩ := fields_start (b := v) (natStr_spec N).1 (natStr_nospace N)
  have h1 := fields_gap (fields_word (natStr_spec B).1 (natStr_nospace B)) b2 n2 hw
  have h2 := fields_gap (split_fields u) b1 n1 h1
  refine ⟨Str.split u, w, b, ?_, hp⟩
  refine fields_unique hf ?_
  rw [lastMark, e1, e2]
  simpa [List.append_assoc] using h2

/-- The line of a mode and an ion. -/
theorem row_fields {i j : Nat} (hi : i < 1000) (hj : j < 1000) {t : Str} {ws : List Str} (ht : ∀ c, t.head? = some c → isSpace c = true) (hf : Fields t ws) :
    Fields (right4 (natStr i) ++ (right4 (natStr j) ++ t)) (natStr i :: natStr j :: ws) := by
  obtain ⟨g1, e1, b1, n1⟩ := right4_gap hi
  obtain ⟨g2, e2, b2, n2⟩ := right4_gap hj
  have h3 : Fields (natStr j ++ t) (natStr j :: ws) := by
    cases t with
    | nil =>
      have := fields_unique hf (fields_blank (by intro c hc; cases hc))
      rw [this, List.append_nil]; exact fields_word (natStr_spec j).1 (natStr_nospace j)
    | cons c t =>
      have hc := ht c rfl
      have hf' : Fields t ws := by
        have := fields_gap (a := []) (fields_blank (g := []) (by intro c hc; cases hc)) (g := [c]) (by intro d hd; simp only [List.mem_singleton] at hd; rw [hd]; exact hc)
          (by simp) (split_fields t)
        rw [List.nil_append, List.nil_append] at this
        rw [fields_unique hf this]; exact split_fields t
      exact fields_gap (fields_word (natStr_spec j).1 (natStr_nospace j)) (g := [c])
        (by intro d hd; simp only [List.mem_singleton] at hd; rw [hd]; exact hc) (by simp) hf'
  have h2 := fields_gap (fields_word (natStr_spec i).1 (natStr_nospace i)) b2 n2 h3
  rw [e1, e2]
  have := fields_prepend b1 h2
  simpa [List.append_assoc] using this

theorem mark_row {B N i j : Nat} (hB : B < 1000) (hN : N < B) (hi : i ≤ B) (hj : j ≤ N) {t : Str} {ws : List Str}
    (ht : ∀ c, t.head? = some c → isSpace c = true) (hf : Fields t ws) (hw : ∀ w ∈ ws, (46 : Nat) ∈ w)
    (h : Occurs (lastMark B N) (right4 (natStr i) ++ (right4 (natStr j) ++ t))) : i = B ∧ j = N := by
  obtain ⟨a, w, b, e, hp⟩ := mark_words hB (by omega) h (row_fields (by omega) (by omega) ht hf)
  have dot : ∀ n, (46 : Nat) ∉ natStr n := by
    intro n hn
    have := (natStr_spec n).2.1 46 hn
    omega
  match a with
  | [] =>
    simp only [List.nil_append, List.cons.injEq] at e
    obtain ⟨e1, e2, -⟩ := e
    have h1 : i = B := by rw [← (natStr_spec i).2.2, e1, (natStr_spec B).2.2]
    refine ⟨h1, ?_⟩
    rw [← e2] at hp
    obtain ⟨v, hv⟩ := hp
    have := digitsVal_append (natStr N) v
    rw [hv, (natStr_spec N).2.2, (natStr_spec j).2.2] at this
    omega
  | [x] =>
    simp only [List.cons_append, List.nil_append, List.cons.injEq] at e
    obtain ⟨-, e2, -⟩ := e
    have h1 : j = B := by rw [← (natStr_spec j).2.2, e2, (natStr_spec B).2.2]
    omega
  | x :: y :: a =>
    simp only [List.cons_append, List.cons.injEq] at e
    obtain ⟨-, -, e3⟩ := e
    exact absurd (hw (natStr B) (by rw [e3]; simp)) (dot B)

end Verif.Phonon

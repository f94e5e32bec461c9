import Verif.Lemmas.BlockFile
/- `.efield` files. -/
namespace Verif.Efield
open Re NumRe AtomRe Spec

theorem names_bh : Names BEGIN_HEADER_RE (py"BEGIN header") := names_lit (by decide +kernel)
theorem names_eh : Names END_HEADER_RE (py"END header") := names_lit (by decide +kernel)
theorem names_bo : Names BEGIN_OSC_RE (py"BEGIN Oscillator Strengths") := names_lit (by decide +kernel)
theorem names_eo : Names END_OSC_RE (py"END Oscillator Strengths") := names_lit (by decide +kernel)
theorem names_bp : Names BEGIN_PERM_RE (py"BEGIN permittivity") := names_lit (by decide +kernel)
theorem names_ep : Names END_PERM_RE (py"END permittivity") := names_lit (by decide +kernel)

theorem perm_labelled : labelledPat [] [] EfieldPart.cols = .ok PERM_RE := by decide +kernel
theorem osc_labelled : labelledPat [star sp, .group 1 I] [py"freq"] Res.SND_D = .ok OSC_RE := by decide +kernel
theorem cols_eq : cols = EfieldPart.cols := by decide +kernel
theorem cols_nodup : EfieldPart.cols.Nodup := by decide +kernel

attribute [local irreducible] BEGIN_HEADER_RE END_HEADER_RE BEGIN_OSC_RE END_OSC_RE BEGIN_PERM_RE END_PERM_RE
  OSC_RE PERM_RE EXTRA_RE

/-- A row of oscillator strengths: its first seven numbers are taken. -/
theorem osc_row {l : Str} {ns : List Numeral} {more : List Str} (hf : Fields l (ns.map Numeral.text ++ more))
    (hn : RowOk 8 ns) (hi : ∀ n ∈ ns.head?, n.IsInt) :
    ∃ m, OSC_RE.match_ l = some m ∧
      groupVals m = (EfieldPart.cols.zip (ns.take 7)).map fun q => (Key.str q.1, PyVal.str q.2.text) := by
  obtain ⟨-, hnm, he⟩ := labelledPat_ok osc_labelled
  obtain ⟨hl, hv⟩ := hn
  cases ns with
  | nil => cases hl
  | cons n ns =>
    have hl' : ns.length = 7 := by simpa using hl
    have hsplit : ns = ns.take 6 ++ ns.drop 6 := (List.take_append_drop 6 ns).symm
    have hf' : Fields l (n.text :: ((ns.take 6).map Numeral.text ++ ((ns.drop 6).map Numeral.text ++ more))) := by
      rw [← List.append_assoc, ← List.map_append, ← hsplit]
      exact hf
    have hc : capsOf 1 (n :: ns.take 6) [] = capsOf 2 (ns.take 6) [(1, n.text)] := by simp [capsOf, List.zipIdx_cons]
    obtain ⟨m, h1, h2, h3⟩ := Gets.match_ (p := OSC_RE) (s := l) (C := fun c => c = capsOf 1 (n :: ns.take 6) [])
      (Gets.congr he (by
        refine Gets.start hf' clear_nil fun pre s' hp hs => ?_
        refine Gets.int (hv n (by simp)).1 (hi n rfl) hp hs ?_
        have := gets_lfs (r := .eps) (C := fun c => c = capsOf 1 (n :: ns.take 6) []) (ns.take 6) 2
          (pre := n.text.reverse ++ pre) (caps := [(1, n.text)]) hs
          (fun x hx => (hv x (List.mem_cons_of_mem _ (List.mem_of_mem_take hx))).1) fun _ _ _ => Gets.eps hc.symm
        rw [show (ns.take 6).length = 6 by rw [List.length_take]; omega] at this
        exact this))
    refine ⟨m, h1, ?_⟩
    have := groupVals_labels (labels := EfieldPart.cols) 1 h2 (h3.trans hnm) (by rw [List.length_cons, List.length_take, hl']; rfl)
    simpa using this

theorem table_perm {info : Dict Key PyVal} {rd : Numeral → F64} {first last : Str} {inner : List Str} {rows : List (List Numeral)}
    (hr : List.Forall₂ NumLine inner rows) (hok : ∀ r ∈ rows, RowOk 7 r) (hi : ListAt info (py"permittivity"))
    (h : ∀ r ∈ rows, ∀ n ∈ r, parse_float_or_rational n.text = .ok (rd n)) :
    table PERM_RE (py"permittivity") info ⟨0, 0, first :: (inner ++ [last])⟩ =
      .ok (addTable info (py"permittivity") (columnTable rd EfieldPart.cols rows.dropLast)) := by
  have hm := matchRows_labelled (p := PERM_RE) (labels := EfieldPart.cols)
    (fun l ns a b c => labelled_row perm_labelled a b c) cols_nodup (forall₂_dropLast hr) []
    (fun r hr => ⟨(hok r (List.mem_of_mem_dropLast hr)).1, fun n hn => ((hok r (List.mem_of_mem_dropLast hr)).2 n hn).1⟩)
  rw [table, slice_rows, cols_eq]
  rw [colsOf, if_pos rfl] at hm
  rw [hm]
  exact putTable_rows hi (by decide) cols_nodup fun r hr => h r (List.mem_of_mem_dropLast hr)

theorem osc_rows {ls : List Str} {rows : List (List Numeral)}
    (h : List.Forall₂ (fun l (ns : List Numeral) => ∃ more, Fields l (ns.map Numeral.text ++ more)) ls rows) :
    ∀ done, (∀ r ∈ rows, RowOk 8 r ∧ ∀ n ∈ r.head?, n.IsInt) →
      Dos.matchRows OSC_RE ls (colsOf EfieldPart.cols done) = .ok (colsOf EfieldPart.cols (done ++ rows.map (List.take 7))) := by
  induction h with
  | nil => intro done _; rw [Dos.matchRows, List.map_nil, List.append_nil]
  | @cons l r ls rows hr _ ih =>
    intro done hok
    obtain ⟨more, hr⟩ := hr
    obtain ⟨m, h1, h2⟩ := osc_row hr (hok r (by simp)).1 (hok r (by simp)).2
    rw [Dos.matchRows, h1]
    dsimp only
    rw [h2, stack_row cols_nodup done (r.take 7) (by rw [List.length_take, (hok r (by simp)).1.1]; rfl)]
    show Dos.matchRows OSC_RE ls _ = _
    rw [ih _ fun x hx => hok x (by simp [hx])]
    simp

theorem table_osc {info : Dict Key PyVal} {rd : Numeral → F64} {first last : Str} {inner : List Str} {rows : List (List Numeral)}
    (hr : List.Forall₂ (fun l (ns : List Numeral) => ∃ more, Fields l (ns.map Numeral.text ++ more)) inner rows)
    (hok : ∀ r ∈ rows, RowOk 8 r ∧ ∀ n ∈ r.head?, n.IsInt) (hi : ListAt info (py"oscillator_strengths"))
    (h : ∀ r ∈ rows, ∀ n ∈ r, parse_float_or_rational n.text = .ok (rd n)) :
    table OSC_RE (py"oscillator_strengths") info ⟨0, 0, first :: (inner ++ [last])⟩ =
      .ok (addTable info (py"oscillator_strengths") (columnTable rd EfieldPart.cols (rows.dropLast.map (List.take 7)))) := by
  have hm := osc_rows (forall₂_dropLast hr) [] (fun r hr => hok r (List.mem_of_mem_dropLast hr))
  rw [table, slice_rows, cols_eq]
  rw [colsOf, if_pos rfl] at hm
  rw [hm]
  refine putTable_rows hi (by decide) cols_nodup fun r hr n hn => ?_
  obtain ⟨r', hr', rfl⟩ := List.mem_map.1 hr
  exact h r' (List.mem_of_mem_dropLast hr') n (List.mem_of_mem_take hn)

theorem loop_cons (fuel : Nat) (line : Str) (rest : List Str) (info : Dict Key PyVal) :
    loop (fuel + 1) (line :: rest) info = (do
      match ← tryBlock (found BEGIN_HEADER_RE) (found END_HEADER_RE) line rest with
      | (some b, rest) => do
        let h ← parse_regular_header EXTRA_RE b.rest
        loop fuel rest (updateDict info h)
      | (none, rest) => do
        match ← tryBlock (found BEGIN_OSC_RE) (found END_OSC_RE) line rest with
        | (some b, rest) => do
          let info ← table OSC_RE (py"oscillator_strengths") info b
          loop fuel rest info
        | (none, rest) => do
          let (info, rest) ← other line rest info
          loop fuel rest info) := rfl

theorem merge_listAt {d : Dict Key PyVal} {k : Str} : ∀ (e : Dict Key PyVal), (∀ p ∈ e, p.1 ≠ .str k) → ListAt d k → ListAt (merge d e) k := by
  intro e
  induction e generalizing d with
  | nil => intro _ h; exact h
  | cons p e ih =>
    intro h1 h2
    refine ih (d := d.set p.1 p.2) (fun q hq => h1 q (by simp [hq])) ?_
    rw [ListAt, Dict.get?_set, if_neg (h1 p (by simp))]
    exact h2

theorem mem_ofList {l : List (Key × PyVal)} {p : Key × PyVal} : p ∈ Dict.ofList l → ∃ q ∈ l, q.1 = p.1 := by
  have key : ∀ (l : List (Key × PyVal)) (d : Dict Key PyVal), p.1 ∈ (l.foldl (fun d kv => d.set kv.1 kv.2) d).keys →
      p.1 ∈ d.keys ∨ ∃ q ∈ l, q.1 = p.1 := by
    intro l
    induction l with
    | nil => intro d h; exact .inl h
    | cons a l ih =>
      intro d h
      rcases ih _ h with h | ⟨q, hq, e⟩
      · rcases (Dict.mem_keys_set _ _ _ _).1 h with h | h
        · exact .inr ⟨a, by simp, h.symm⟩
        · exact .inl h
      · exact .inr ⟨q, by simp [hq], e⟩
  intro h
  rcases key l [] (List.mem_map_of_mem h) with h | h
  · cases h
  · exact h

theorem header_keys {opt k : Str} {rd : Numeral → F64} {items : List HeadItem} (h1 : k ≠ py"coords") (h2 : k ≠ py"unit_cell")
    (h3 : k ≠ opt) (h4 : ∀ i ∈ items, ∀ key n, i = .count key n → Str.join (py" ") key ≠ k) :
    ∀ p ∈ headerOf opt rd items, p.1 ≠ .str k := by
  intro p hp e
  have hk : p.1 ∈ (headerOf opt rd items).keys := List.mem_map_of_mem hp
  rw [headerOf] at hk
  rcases (Dict.mem_keys_set _ _ _ _).1 hk with h | h
  · rw [e] at h; injection h with h; exact h1 h
  · obtain ⟨q, hq, hqe⟩ := List.mem_map.1 h
    obtain ⟨q', hq', hqe'⟩ := mem_ofList hq
    obtain ⟨i, hi, hm⟩ := List.mem_flatMap.1 hq'
    rw [hqe, e] at hqe'
    cases i with
    | count key n =>
      simp only [HeadItem.entries, List.mem_singleton] at hm
      subst hm
      injection hqe' with hh
      exact h4 _ hi key n rfl hh
    | cell rows =>
      simp only [HeadItem.entries, List.mem_singleton] at hm
      subst hm
      injection hqe' with hh
      exact h2 hh.symm
    | ion p => cases hm
    | note hit nums =>
      simp only [HeadItem.entries] at hm
      split at hm
      · simp only [List.mem_singleton] at hm
        subst hm
        injection hqe' with hh
        exact h3 hh.symm
      · cases hm

/-- All parts of a file. -/
theorem loop_parts (rd : Numeral → F64) (parts : List EfieldPart) (ls : List (List Str))
    (h : List.Forall₂ EfieldPart.Lines parts ls) (hok : ∀ p ∈ parts, p.Ok)
    (hrd : ∀ p ∈ parts, ∀ n ∈ p.nums, parse_float_or_rational n.text = .ok (rd n)) :
    ∀ (info : Dict Key PyVal) (fuel : Nat), ls.flatten.length < fuel →
      ListAt info (py"oscillator_strengths") → ListAt info (py"permittivity") →
      loop fuel ls.flatten info = .ok (parts.foldl (EfieldPart.put rd List.dropLast (List.take 7)) info) := by
  induction h with
  | nil =>
    intro info fuel hf _ _
    cases fuel with
    | zero => simp at hf
    | succ fuel => rfl
  | @cons p l parts ls hp _ ih =>
    intro info fuel hf ho hpm
    have ih := ih (fun q hq => hok q (by simp [hq])) (fun q hq => hrd q (by simp [hq]))
    have hokp := hok p (by simp)
    have hrdp := hrd p (by simp)
    rw [List.flatten_cons, List.length_append] at hf
    rw [List.flatten_cons, List.foldl_cons]
    cases fuel with
    | zero => simp at hf
    | succ fuel =>
      cases p with
      | header items =>
        obtain ⟨⟨inner, first, last, hl, h1, h2, h3⟩, ps, hps, hfl⟩ := hp
        have hlen : 0 < l.length := by rw [hl]; simp
        have hh := regular_header EXTRA_RE (py"Oscillator Q") (looks_lit _ _ (by decide +kernel)) rd items ps hps
          (fun i hi n hn => hrdp n (List.mem_flatMap.2 ⟨i, hi, hn⟩))
        rw [← hfl, hl] at hh
        rw [hl, List.cons_append, List.append_assoc, loop_cons]
        rw [show [last] ++ ls.flatten = last :: ls.flatten from rfl,
          tryBlock_enclosed names_bh names_eh (c := 66) (by decide) (by decide) h1 h2 h3]
        show (parse_regular_header EXTRA_RE (first :: (inner ++ [last])) >>= fun h => loop fuel ls.flatten (updateDict info h)) = _
        rw [hh]
        have k1 := header_keys (opt := py"Oscillator Q") (k := py"oscillator_strengths") (rd := rd) (items := items) (by decide) (by decide) (by decide)
          fun i hi key n e => (hokp.2 i hi key n e).1
        have k2 := header_keys (opt := py"Oscillator Q") (k := py"permittivity") (rd := rd) (items := items) (by decide) (by decide) (by decide)
          fun i hi key n e => (hokp.2 i hi key n e).2
        exact ih _ fuel (by omega) (merge_listAt _ k1 ho) (merge_listAt _ k2 hpm)
      | osc rows =>
        obtain ⟨hs, inner, ⟨first, last, hl, h1, h2, h3⟩, hrows⟩ := hp
        have hlen : 0 < l.length := by rw [hl]; simp
        have m1 : ¬ Occurs (py"BEGIN header") first := hs _ (by simp) first (by rw [hl]; rfl)
        rw [hl, List.cons_append, List.append_assoc, loop_cons, show [last] ++ ls.flatten = last :: ls.flatten from rfl,
          tryBlock_miss names_bh m1]
        show (tryBlock _ _ _ _ >>= _) = _
        rw [tryBlock_enclosed names_bo names_eo (c := 66) (by decide) (by decide) h1 h2 h3]
        show (table OSC_RE _ info ⟨0, 0, first :: (inner ++ [last])⟩ >>= fun info => loop fuel ls.flatten info) = _
        rw [table_osc (rd := rd) hrows hokp ho fun r hr n hn => hrdp n (List.mem_flatten.2 ⟨r, hr, hn⟩)]
        exact ih _ fuel (by omega) (addTable_listAt ho) (addTable_listAt hpm)
      | perm rows =>
        obtain ⟨hs, inner, ⟨first, last, hl, h1, h2, h3⟩, hrows⟩ := hp
        have hlen : 0 < l.length := by rw [hl]; simp
        have m1 : ¬ Occurs (py"BEGIN header") first := hs _ (by simp) first (by rw [hl]; rfl)
        have m2 : ¬ Occurs (py"BEGIN Oscillator Strengths") first := hs _ (by simp) first (by rw [hl]; rfl)
        rw [hl, List.cons_append, List.append_assoc, loop_cons, show [last] ++ ls.flatten = last :: ls.flatten from rfl,
          tryBlock_miss names_bh m1]
        show (tryBlock _ _ _ _ >>= _) = _
        rw [tryBlock_miss names_bo m2]
        show (other _ _ _ >>= _) = _
        rw [other, tryBlock_enclosed names_bp names_ep (c := 66) (by decide) (by decide) h1 h2 h3]
        show ((table PERM_RE _ info ⟨0, 0, first :: (inner ++ [last])⟩ >>= fun info => pure (info, ls.flatten)) >>= _) = _
        rw [table_perm (rd := rd) hrows hokp hpm fun r hr n hn => hrdp n (List.mem_flatten.2 ⟨r, hr, hn⟩)]
        exact ih _ fuel (by omega) (addTable_listAt ho) (addTable_listAt hpm)
      | other =>
        obtain ⟨hs, hlen⟩ := hp
        obtain ⟨x, rfl⟩ := List.length_eq_one_iff.1 hlen
        have m1 : ¬ Occurs (py"BEGIN header") x := hs _ (by simp) x rfl
        have m2 : ¬ Occurs (py"BEGIN Oscillator Strengths") x := hs _ (by simp) x rfl
        have m3 : ¬ Occurs (py"BEGIN permittivity") x := hs _ (by simp) x rfl
        rw [List.cons_append, List.nil_append, loop_cons, tryBlock_miss names_bh m1]
        show (tryBlock _ _ _ _ >>= _) = _
        rw [tryBlock_miss names_bo m2]
        show (other _ _ _ >>= _) = _
        rw [other, tryBlock_miss names_bp m3]
        exact ih _ fuel (by rw [hlen] at hf; omega) ho hpm

end Verif.Efield

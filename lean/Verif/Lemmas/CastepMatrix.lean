import Verif.Spec.CastepMatrix
import Verif.Lemmas.CastepRows
import Verif.Lemmas.FloatOps
import Verif.Props.Numbers
/-
Lemmas about matrices in `.castep` files.
-/
namespace Verif.Castep
open Verif Verif.Spec Verif.Re Verif.NumRe Verif.AtomRe

theorem numbers_of {l : Str} {ns : List Numeral} (h : HoldsNumbers l ns) (hn : NumsOk ns) :
    Res.get_numbers l = ns.map Numeral.text := by
  obtain ⟨lead, ps, rfl, h1, rfl, h2, h3⟩ := h
  rw [Props.C30_complete lead ps h1 (fun p hp => (hn p.1 (List.mem_map.2 ⟨p, hp, rfl⟩)).1) h2 h3, List.map_map]
  rfl

theorem noDigit_numbers {l : Str} (h : NoDigit l) : Res.get_numbers l = [] := by
  have hd : NoDigits l := fun c hc => by
    cases hd : isDigit c with
    | false => rfl
    | true => exact absurd ((isDigit_iff c).1 hd) (h c hc)
  rw [Res.get_numbers, Pat.findall, Pat.finditer, Pat.findFrom_nil _ _ _ _ (num_tail_none l [] hd)]
  rfl

theorem to_type_nums {rd : Numeral → F64} {ns : List Numeral} (h : ∀ n ∈ ns, parse_float_or_rational n.text = .ok (rd n)) :
    to_type .float (strList (ns.map Numeral.text)) = .ok (floats (ns.map rd)) := by
  rw [to_type_strList .float ns Numeral.text (fun n => .float (rd n)) fun n hn => typeParser_float (h n hn), floats,
    List.map_map]
  rfl

/-! ### Stresses -/

theorem stressLine_none {l : Str} (h : NoStress l) (acc : List Str) : stressLine acc l = acc := by
  obtain ⟨h1, h2, h3⟩ := h
  rw [← Str.contains_iff] at h1 h2 h3
  simp only [stressLine, if_neg h1, if_neg h2, if_neg h3]

theorem stress_none {ls : List Str} (h : ∀ l ∈ ls, NoStress l) (acc : List Str) : ls.foldl stressLine acc = acc := by
  induction ls with
  | nil => rfl
  | cons l ls ih => rw [List.foldl_cons, stressLine_none (h l (by simp)), ih fun x hx => h x (by simp [hx])]

theorem stress_fold {lines : List Str} {xx xy xz yx yy yz zx zy zz : Numeral}
    (h : StressLines lines xx xy xz yx yy yz zx zy zz) (hn : NumsOk [xx, xy, xz, yx, yy, yz, zx, zy, zz]) :
    lines.foldl stressLine [] = [xx, xy, xz, yy, yz, zz].map Numeral.text := by
  obtain ⟨b, lx, m, ly, a, lz, r, rfl, h1, h2, h3, h4, h5, h6, h7, h8, h9, h10⟩ := h.holds
  have n1 := numbers_of h3 (fun n hn' => hn n (by simp at hn' ⊢; tauto))
  have n2 := numbers_of h6 (fun n hn' => hn n (by simp at hn' ⊢; tauto))
  have n3 := numbers_of h10 (fun n hn' => hn n (by simp at hn' ⊢; tauto))
  rw [← Str.contains_iff] at h2 h4 h5 h7 h8 h9
  have e1 := stress_none (ls := b) fun l hl => h1 l (by simp [hl])
  have e2 := stress_none (ls := m) fun l hl => h1 l (by simp [hl])
  have e3 := stress_none (ls := a) fun l hl => h1 l (by simp [hl])
  have e4 := stress_none (ls := r) fun l hl => h1 l (by simp [hl])
  rw [List.foldl_append, e1, List.foldl_cons, List.foldl_append, e2, List.foldl_cons, List.foldl_append, e3,
    List.foldl_cons, e4]
  simp only [stressLine, h2, h4, h5, h7, h8, h9, n1, n2, n3, if_true, if_false]
  simp

/-! ### Three or six columns -/

theorem row_gets {rd : Numeral → F64} {l : Str} {ns : List Numeral} (h : HoldsNumbers l ns) (hn : NumsOk ns)
    (hrd : ∀ n ∈ ns, parse_float_or_rational n.text = .ok (rd n)) (h36 : ns.length = 3 ∨ ns.length = 6) :
    matrixRow l = .ok (some (floats (ns.map rd))) := by
  rw [matrixRow, numbers_of h hn]
  simp only [List.length_map, h36, if_true, to_type_nums hrd]
  rfl

theorem row_skip {l : Str} (h : NotRow l) : matrixRow l = .ok none := by
  obtain ⟨ns, hn, h, h3, h6⟩ := h
  rw [matrixRow, numbers_of h hn]
  simp only [List.length_map]
  rw [if_neg (by tauto)]

theorem rows_collect {rd : Numeral → F64} {ls : List Str} {rows : List (List Numeral)}
    (h : Interleaved NotRow HoldsNumbers ls rows) (hn : ∀ r ∈ rows, NumsOk r)
    (hrd : ∀ r ∈ rows, ∀ n ∈ r, parse_float_or_rational n.text = .ok (rd n))
    (h36 : ∀ r ∈ rows, r.length = 3 ∨ r.length = 6) :
    collect matrixRow ls = .ok (rows.map fun r => floats (r.map rd)) := by
  rw [collect_rows (g := fun r : List Numeral => some (floats (r.map rd))) (fun l => row_skip) h
    fun l r hr hl => row_gets hl (hn r hr) (hrd r hr) (h36 r hr)]
  rw [← List.filterMap_eq_map (f := fun r : List Numeral => floats (r.map rd))]; rfl

/-! ### Dynamical matrices -/

theorem complexRow_eq {fl : Numeral → F64} : ∀ (a b : List Numeral), a.length = b.length →
    (∀ n ∈ a ++ b, pyFloat n.text = .ok (fl n)) →
    complexRow (a.map Numeral.text) (b.map Numeral.text) = .ok ((a.zip b).map fun q => .complex (fl q.1) (fl q.2))
  | [], [], _, _ => rfl
  | [], _ :: _, h, _ => by simp at h
  | _ :: _, [], h, _ => by simp at h
  | x :: a, y :: b, h, hf => by
    rw [List.map_cons, List.map_cons, complexRow, hf x (by simp), hf y (by simp)]
    show (do let l ← complexRow (a.map Numeral.text) (b.map Numeral.text); _) = _
    rw [complexRow_eq a b (by simpa using h) fun n hn => hf n (by simp at hn ⊢; tauto)]
    rfl

theorem complexRow_err {fl : Numeral → F64} : ∀ (a b : List Numeral), a.length ≠ b.length →
    (∀ n ∈ a ++ b, pyFloat n.text = .ok (fl n)) →
    complexRow (a.map Numeral.text) (b.map Numeral.text) = .error .valueError
  | [], [], h, _ => by simp at h
  | [], _ :: _, _, _ => rfl
  | _ :: _, [], _, _ => rfl
  | x :: a, y :: b, h, hf => by
    rw [List.map_cons, List.map_cons, complexRow, hf x (by simp), hf y (by simp)]
    show (do let l ← complexRow (a.map Numeral.text) (b.map Numeral.text); _) = _
    rw [complexRow_err a b (by simpa using h) fun n hn => hf n (by simp at hn ⊢; tauto)]
    rfl

theorem complexRows_eq {fl : Numeral → F64} : ∀ (re im : List (List Numeral)),
    List.Forall₂ (fun a b => a.length = b.length) re im →
    (∀ r ∈ re ++ im, ∀ n ∈ r, pyFloat n.text = .ok (fl n)) →
    complexRows (re.map (List.map Numeral.text)) (im.map (List.map Numeral.text)) =
      .ok ((re.zip im).map fun p => .tuple ((p.1.zip p.2).map fun q => .complex (fl q.1) (fl q.2)))
  | [], [], _, _ => rfl
  | [], _ :: _, h, _ => by cases h
  | _ :: _, [], h, _ => by cases h
  | x :: a, y :: b, h, hf => by
    cases h with
    | cons h1 h2 =>
    rw [List.map_cons, List.map_cons, complexRows, complexRow_eq (fl := fl) x y h1 fun n hn => by
      rcases List.mem_append.1 hn with hn | hn
      · exact hf x (by simp) n hn
      · exact hf y (by simp) n hn]
    show (do let l ← complexRows (a.map (List.map Numeral.text)) (b.map (List.map Numeral.text)); _) = _
    rw [complexRows_eq a b h2 fun r hr => hf r (by simp at hr ⊢; tauto)]
    rfl

/-- A different number of rows, or rows of different lengths. -/
theorem complexRows_err {fl : Numeral → F64} : ∀ (re im : List (List Numeral)),
    ¬ List.Forall₂ (fun a b => a.length = b.length) re im →
    (∀ r ∈ re ++ im, ∀ n ∈ r, pyFloat n.text = .ok (fl n)) →
    complexRows (re.map (List.map Numeral.text)) (im.map (List.map Numeral.text)) = .error .valueError
  | [], [], h, _ => absurd .nil h
  | [], _ :: _, _, _ => rfl
  | _ :: _, [], _, _ => rfl
  | x :: a, y :: b, h, hf => by
    have hx : ∀ n ∈ x ++ y, pyFloat n.text = .ok (fl n) := fun n hn => by
      rcases List.mem_append.1 hn with hn | hn
      · exact hf x (by simp) n hn
      · exact hf y (by simp) n hn
    by_cases h1 : x.length = y.length
    · rw [List.map_cons, List.map_cons, complexRows, complexRow_eq x y h1 hx]
      show (do let l ← complexRows (a.map (List.map Numeral.text)) (b.map (List.map Numeral.text)); _) = _
      rw [complexRows_err a b (fun h2 => h (.cons h1 h2)) fun r hr => hf r (by simp at hr ⊢; tauto)]
      rfl
    · rw [List.map_cons, List.map_cons, complexRows, complexRow_err x y h1 hx]
      rfl

theorem realRows_eq {ion : Str} {rest : List Str} (hi : Occurs (py"Ion") ion) :
    ∀ (ls : List Str) (rows : List (Numeral × Numeral × List Numeral)), List.Forall₂ DynRow ls rows →
    (∀ l ∈ ls, ¬ Occurs (py"Ion") l) → (∀ r ∈ rows, NumsOk (r.1 :: r.2.1 :: r.2.2)) →
    realRows (ls ++ ion :: rest) = .ok (rows.map fun r => r.2.2.map Numeral.text, rest)
  | [], _, .nil, _, _ => by
    rw [← Str.contains_iff] at hi
    simp [realRows, hi]
  | l :: ls, r :: rows, .cons h1 h2, h3, h4 => by
    have hc := h3 l (by simp)
    rw [← Str.contains_iff] at hc
    have hn := numbers_of h1 (h4 r (by simp))
    have hne : l.isEmpty = false := by
      cases l with
      | nil =>
        exfalso
        have : Res.get_numbers [] = [] := by decide +kernel
        rw [this] at hn; simp at hn
      | cons _ _ => rfl
    rw [List.cons_append, realRows, hne, Bool.eq_false_of_not_eq_true hc]
    simp only [Bool.or_self, Bool.false_eq_true, if_false]
    rw [realRows_eq hi ls rows h2 (fun x hx => h3 x (by simp [hx])) fun x hx => h4 x (by simp [hx]), hn]
    rfl

theorem imagRows_eq {ls : List Str} {rows : List (Numeral × Numeral × List Numeral)}
    (h : Interleaved (HoldsNumbers · []) DynRow ls rows) (hn : ∀ r ∈ rows, NumsOk (r.1 :: r.2.1 :: r.2.2)) :
    ((ls.filter fun l => !(Res.get_numbers l).isEmpty).map fun l => (Res.get_numbers l).drop 2) =
      rows.map fun r => r.2.2.map Numeral.text := by
  induction h with
  | nil => rfl
  | skip h1 _ ih =>
    rw [List.filter_cons, numbers_of h1 (by simp [NumsOk])]
    exact ih hn
  | @row l ls r rs h1 _ ih =>
    have := numbers_of h1 (hn r (by simp))
    rw [List.filter_cons, this]
    simp only [List.map_cons, List.isEmpty_cons, Bool.not_false, if_true]
    rw [this, ih fun x hx => hn x (by simp [hx])]
    rfl

/-! ### Raman tensors -/

theorem RAMAN_END_eq : RAMAN_END_RE = ⟨.seq .bol (.seq (.set (ch 32)) (.seq (.set (ch 43)) (.seq (plus sp) (.set (ch 43))))), [], 0⟩ := by
  decide +kernel

theorem end_iff (l : Str) : (RAMAN_END_RE.search l).isSome = true ↔ RamanMode.End l := by
  have hp : RAMAN_END_RE.re = .seq .bol (.seq (.set (ch 32)) (.seq (.set (ch 43)) (.seq (plus sp) (.set (ch 43))))) := by
    rw [RAMAN_END_eq]
  rw [Pat.search_bol _ _ hp, Pat.match_, Pat.isSome_bol _ _ hp (by decide)]
  constructor
  · rintro ⟨w, rest, rfl, u1, v1, rfl, ⟨c1, h1, rfl⟩, u2, v2, rfl, ⟨c2, h2, rfl⟩, u3, v3, rfl, h3, ⟨c4, h4, rfl⟩⟩
    rw [has_ch] at h1 h2 h4
    simp only [beq_iff_eq] at h1 h2 h4
    subst h1 h2 h4
    rw [lang_rep_set] at h3
    refine ⟨u3, rest, by simp, fun c hc => ?_, ?_⟩
    · rw [← has_sp]; exact h3.1 c hc
    · rintro rfl; simp at h3
  · rintro ⟨g, t, rfl, hg, hne⟩
    refine ⟨py" +" ++ g ++ [43], t, by simp, [32], _, rfl, ⟨32, by decide, rfl⟩, [43], _, rfl, ⟨43, by decide, rfl⟩, g, [43], rfl, ?_,
      ⟨43, by decide, rfl⟩⟩
    rw [lang_rep_set]
    refine ⟨fun c hc => by rw [has_sp]; exact hg c hc, List.length_pos_of_ne_nil hne, by simp⟩

theorem body_iff {l : Str} : RamanMode.Body l ↔ Str.contains (py"Mode number") l = false := by
  rw [RamanMode.Body, ← Str.contains_iff, Bool.not_eq_true]

/-- A mode being read. -/
def openMode (t : List PyVal) (d : PyVal) : Dict Key PyVal := [(.str (py"tensor"), .list t), (.str (py"depolarisation"), d)]

theorem raman_row3 (o : Ops F64) {rd : Numeral → F64} {l : Str} {a b c : Numeral} (h : RamanMode.Body l)
    (hl : HoldsNumbers l [a, b, c]) (hn : NumsOk [a, b, c]) (hrd : ∀ n ∈ [a, b, c], parse_float_or_rational n.text = .ok (rd n))
    (ms t : List PyVal) (d : PyVal) :
    ramanLine o (ms, openMode t d) l = .ok (ms, openMode (t ++ [floats ([a, b, c].map rd)]) d) := by
  rw [body_iff] at h
  have := to_type_nums hrd
  rw [ramanLine, h, numbers_of hl hn]
  simp only [Bool.false_eq_true, if_false, List.map_cons, List.map_nil] at this ⊢
  show (do let mode ← ramanRow (openMode t d) [a.text, b.text, c.text]; _) = _
  have e : ramanRow (openMode t d) [a.text, b.text, c.text] = .ok (openMode (t ++ [floats ([a, b, c].map rd)]) d) := by
    show (do let row ← to_type .float (strList [a.text, b.text, c.text]); _) = _
    rw [this]; rfl
  rw [e]; rfl

theorem raman_row4 (o : Ops F64) {rd fl : Numeral → F64} {l : Str} {a b c e : Numeral} (h : RamanMode.Body l)
    (hl : HoldsNumbers l [a, b, c, e]) (hn : NumsOk [a, b, c, e])
    (hrd : ∀ n ∈ [a, b, c], parse_float_or_rational n.text = .ok (rd n)) (hfl : pyFloat e.text = .ok (fl e))
    (ms t : List PyVal) (d : PyVal) :
    ramanLine o (ms, openMode t d) l = .ok (ms, openMode (t ++ [floats ([a, b, c].map rd)]) (.float (fl e))) := by
  rw [body_iff] at h
  have := to_type_nums hrd
  rw [ramanLine, h, numbers_of hl hn]
  simp only [Bool.false_eq_true, if_false, List.map_cons, List.map_nil] at this ⊢
  show (do let mode ← ramanRow (openMode t d) [a.text, b.text, c.text, e.text]; _) = _
  have e : ramanRow (openMode t d) [a.text, b.text, c.text, e.text] =
      .ok (openMode (t ++ [floats ([a, b, c].map rd)]) (.float (fl e))) := by
    show (do let row ← to_type .float (strList [a.text, b.text, c.text]); _) = _
    rw [this]
    show (do let x ← floatV e.text; _) = _
    rw [floatV, hfl]; rfl
  rw [e]; rfl

theorem raman_end (o : Ops F64) {l : Str} (h : RamanMode.Body l) (hd : NoDigit l) (he : RamanMode.End l) (ms : List PyVal)
    (d : PyVal) (x : Fin 3 → Fin 3 → F64) :
    ramanLine o (ms, openMode [floats [x 0 0, x 0 1, x 0 2], floats [x 1 0, x 1 1, x 1 2], floats [x 2 0, x 2 1, x 2 2]] d) l =
      .ok (ms, [(.str (py"tensor"), .tuple [floats [x 0 0, x 0 1, x 0 2], floats [x 1 0, x 1 1, x 1 2], floats [x 2 0, x 2 1, x 2 2]]),
        (.str (py"depolarisation"), d), (.str (py"trace"), .float (o.sum [x 0 0, x 1 1, x 2 2])),
        (.str (py"ii"), .float (o.sub (o.sub (o.sub (o.add (o.add (o.mul (x 0 0) (x 1 1)) (o.mul (x 0 0) (x 2 2)))
          (o.mul (x 1 1) (x 2 2))) (o.mul (x 0 1) (x 1 0))) (o.mul (x 0 2) (x 2 0))) (o.mul (x 1 2) (x 2 1))))]) := by
  rw [body_iff] at h
  have hx := (end_iff l).2 he
  rw [ramanLine, h, noDigit_numbers hd]
  simp only [Bool.false_eq_true, if_false, hx, if_true]
  rfl

theorem raman_skip (o : Ops F64) {l : Str} (h : RamanMode.Body l) (hd : NoDigit l) (he : ¬ RamanMode.End l)
    (s : List PyVal × Dict Key PyVal) : ramanLine o s l = .ok s := by
  rw [body_iff] at h
  have hx : (RAMAN_END_RE.search l).isSome = false := by
    rw [← Bool.not_eq_true, end_iff]; exact he
  rw [ramanLine, h, noDigit_numbers hd]
  simp only [Bool.false_eq_true, if_false, hx]

theorem foldLines_cons {σ : Type} (f : σ → Str → PyM σ) (s t : σ) (l : Str) (ls : List Str) (h : f s l = .ok t) :
    foldLines f s (l :: ls) = foldLines f t ls := by
  rw [foldLines, h]; rfl

/-- The second invariant, as computed. -/
def secondOf (o : Ops F64) (x : Fin 3 → Fin 3 → F64) : F64 := o.second fun i j => x (Fin.ofNat 3 i) (Fin.ofNat 3 j)

/-- All modes. -/
theorem raman_modes {rd fl : Numeral → F64} (o : Ops F64) {lines : List Str} {modes : List RamanMode}
    (h : RamanMode.Lines lines modes) : ∀ (ms : List PyVal) (prev : Dict Key PyVal),
    (∀ m ∈ modes, NumsOk m.nums) → (∀ m ∈ modes, ∀ n ∈ m.nums, parse_float_or_rational n.text = .ok (rd n)) →
    (∀ m ∈ modes, ∀ n ∈ m.nums, pyFloat n.text = .ok (fl n)) →
    (do let (x, y) ← foldLines (ramanLine o) (ms, prev) lines; return PyVal.list (if y.isEmpty then x else x ++ [.dict y])) =
      (.ok (.list ((if prev.isEmpty then ms else ms ++ [.dict prev]) ++
        modes.map (RamanMode.entry rd fl (fun x => o.sum [x 0 0, x 1 1, x 2 2]) (secondOf o)))) : PyM PyVal) := by
  induction h with
  | nil => intro ms prev _ _ _; simp [foldLines]
  | skip h1 h2 h3 _ ih =>
    intro ms prev hn hrd hfl
    rw [foldLines_cons _ _ _ _ _ (raman_skip o h1 h2 h3 _)]
    exact ih ms prev hn hrd hfl
  | @mode title a b c e ls m rest ht ha ha' hb hb' hc hc' he he' hend _ ih =>
    intro ms prev hn hrd hfl
    have hn0 := hn m (by simp)
    have hr0 := hrd m (by simp)
    have m0 : ∀ n ∈ m.row 0, n ∈ m.nums := fun n h => by simp [RamanMode.nums, h]
    have m1 : ∀ n ∈ m.row 1, n ∈ m.nums := fun n h => by simp [RamanMode.nums, h]
    have m2 : ∀ n ∈ m.row 2, n ∈ m.nums := fun n h => by simp [RamanMode.nums, h]
    have md : m.depol ∈ m.nums := by simp [RamanMode.nums]
    rw [← Str.contains_iff] at ht
    rw [foldLines_cons _ _ (if prev.isEmpty then ms else ms ++ [.dict prev], openMode [] .none) _ _ (by
      rw [ramanLine, ht]; rfl)]
    rw [foldLines_cons _ _ _ _ _ (raman_row4 o ha ha' (fun n h => by
      have h : n ∈ m.row 0 ++ [m.depol] := h
      rcases List.mem_append.1 h with h | h
      · exact hn0 n (m0 n h)
      · rw [List.mem_singleton.1 h]; exact hn0 _ md) (fun n h => hr0 n (m0 n h)) (hfl m (by simp) _ md) _ _ _)]
    rw [foldLines_cons _ _ _ _ _ (raman_row3 o hb hb' (fun n h => hn0 n (m1 n h)) (fun n h => hr0 n (m1 n h)) _ _ _)]
    rw [foldLines_cons _ _ _ _ _ (raman_row3 o hc hc' (fun n h => hn0 n (m2 n h)) (fun n h => hr0 n (m2 n h)) _ _ _)]
    simp only [List.nil_append, List.cons_append, List.map_cons, List.map_nil]
    rw [foldLines_cons _ _ _ _ _ (raman_end o he he' hend _ _ (fun i j => rd (m.tensor i j)))]
    rw [ih _ _ (fun x hx => hn x (by simp [hx])) (fun x hx => hrd x (by simp [hx])) (fun x hx => hfl x (by simp [hx]))]
    simp only [List.map_cons, List.isEmpty_cons, Bool.false_eq_true, if_false, List.append_assoc, List.singleton_append]
    rfl

end Verif.Castep

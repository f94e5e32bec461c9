import Verif.Lemmas.Header
import Verif.Lemmas.Blocks
import Verif.Spec.Bands
/-
Band structure files.
-/
namespace Verif
open Re Spec NumRe AtomRe

theorem EIG_eq : Bands.EIG_RE = ⟨.seq .bol (.seq (star sp) (.seq F .eol)), [], 0⟩ := by decide +kernel

theorem startsWith_iff (s p : Str) : Str.startsWith s p = true ↔ ∃ r, s = p ++ r := by
  rw [Str.startsWith, List.isPrefixOf_iff_prefix]
  constructor
  · rintro ⟨r, rfl⟩; exact ⟨r, rfl⟩
  · rintro ⟨r, rfl⟩; exact ⟨r, rfl⟩

theorem strip_pad_eq (g w g' : Str) (hg : Blank g) (hg' : Blank g') (hne : w ≠ []) (hw : ∀ c ∈ w, isSpace c = false) :
    Str.strip (g ++ (w ++ g')) = w := by
  have h1 : Str.lstrip (g ++ (w ++ g')) = w ++ g' := by
    rw [Str.lstrip]
    induction g with
    | nil =>
      cases w with
      | nil => exact absurd rfl hne
      | cons c w => simp [hw c (by simp)]
    | cons c g ih =>
      rw [List.cons_append, List.dropWhile_cons, if_pos (hg c (by simp))]
      exact ih fun d hd => hg d (by simp [hd])
  rw [Str.strip, h1, rstrip_iff]
  refine ⟨⟨g', rfl, hg'⟩, ?_⟩
  intro c hc
  exact hw c (List.mem_of_getLast? hc)

/-- A plain decimal alone is an eigenvalue. -/
theorem eig_match (p : Pat) (hp : p.re = .seq .bol (.seq (star sp) (.seq F .eol))) (n : Numeral) (hn : Decimal n) :
    (p.match_ n.text).isSome = true := by
  rw [Pat.match_, Pat.matchAt_eq, Option.isSome_map, hp]
  obtain ⟨⟨sg, ip, fr, ex⟩, h⟩ : ∃ m : Numeral, m = n := ⟨n, rfl⟩
  subst h
  obtain ⟨⟨h1, h2, h3, -⟩, h4, h5⟩ := hn
  obtain rfl : ex = none := h5
  obtain ⟨f, rfl⟩ : ∃ f, fr = some f := Option.isSome_iff_exists.1 h4
  have ht : Numeral.text ⟨sg, ip, some f, none⟩ = Numeral.signText sg ++ ip ++ 46 :: f ++ [] := by
    simp [Numeral.text, Numeral.fracText, Numeral.expText]
  have hsp : Stops sp (Numeral.text ⟨sg, ip, some f, none⟩) := by
    intro c hc
    rw [has_sp]
    exact text_nospace _ ⟨h1, h2, h3, by simp⟩ c (List.mem_of_mem_head? hc)
  rw [run_seq, run_bol, if_pos (by rfl), run_seq]
  have := run_star_all (β := St) sp [] [] (Numeral.text ⟨sg, ip, some f, none⟩) none []
    (fun t => run (.seq F .eol) t some) ⟨(Numeral.text ⟨sg, ip, some f, none⟩).reverse, [], []⟩ (by simp) hsp (by simp) (by
      show run (.seq F .eol) ⟨[], _, []⟩ some = _
      rw [run_seq, ht]
      apply run_F sg ip f [] [] [] _ _ h1 h2 (by simpa using h3) (by intro c hc; cases hc)
      rw [run_eol, if_pos (by rfl)]; simp)
  rw [List.nil_append] at this
  rw [this]; rfl

/-- Only plain decimals alone are eigenvalues. -/
theorem eig_only (p : Pat) (hp : p.re = .seq .bol (.seq (star sp) (.seq F .eol))) {s : Str}
    (h : (p.match_ s).isSome = true) : ∃ g n t, s = g ++ (Numeral.text n ++ t) ∧ Decimal n ∧ Blank g ∧ (t = [] ∨ t = [10]) := by
  rw [Pat.match_, Pat.matchAt_eq, Option.isSome_map, hp] at h
  obtain ⟨x, hx⟩ := Option.isSome_iff_exists.1 h
  rw [run_seq, run_bol, if_pos (by rfl), run_seq] at hx
  obtain ⟨t1, g, s1, hl1, hx⟩ := run_some hx
  rw [run_seq] at hx
  obtain ⟨t2, w, s2, hl2, hx⟩ := run_some hx
  rw [run_eol] at hx
  split at hx
  · rename_i he
    obtain ⟨n, v1, v2, v3, rfl⟩ := lang_F hl2
    rw [lang_rep_set] at hl1
    refine ⟨g, n, t2.post, ?_, ⟨v1, v3, v2⟩, fun c hc => by have := hl1.1 c hc; rwa [has_sp] at this, ?_⟩
    · have e1 := s1.post; have e2 := s2.post
      rw [e2] at e1; exact e1
    · simp at he; exact he
  · cases hx

theorem numberLine_text {line : Str} {n : Numeral} (h : NumberLine line n) :
    ∃ g g', line = g ++ (n.text ++ g') ∧ Blank g ∧ Blank g' ∧ n.text ≠ [] ∧ ∀ c ∈ n.text, isSpace c = false := by
  obtain ⟨g, s, rfl, h1, h2, h3, -, h5⟩ := fields_uncons h
  exact ⟨g, s, rfl, h1, blank_of_fields h5, h2, h3⟩

namespace Bands

theorem numberLine_first {line : Str} {n : Numeral} (hn : n.Valid) (h : NumberLine line n) (w : Str) (a : Nat) (v : Str)
    (hw : w = a :: v) (ha : 65 ≤ a ∧ a ≤ 90) : Str.startsWith line w = false := by
  rw [Bool.eq_false_iff]
  intro hs
  obtain ⟨r, hr⟩ := (startsWith_iff _ _).1 hs
  obtain ⟨g, g', e, h1, -⟩ := numberLine_text h
  obtain ⟨c, t, ht, hc⟩ := text_head n hn
  rw [hr, hw, ht] at e
  cases g with
  | nil =>
    simp at e
    simp only [numChar, isDigit] at hc
    simp at hc
    omega
  | cons d g =>
    simp at e
    have := h1 d (by simp)
    rw [← e.1] at this
    simp [isSpace] at this; omega

/-- An eigenvalue is added to those collected. -/
theorem step_number (s : State) {line : Str} {n : Numeral} (hn : Decimal n) (h : NumberLine line n) :
    step s line = .ok { s with accum := s.accum ++ [n.text] } := by
  obtain ⟨g, g', e, h1, h2, h3, h4⟩ := numberLine_text h
  have hst : Str.strip line = n.text := by rw [e]; exact strip_pad_eq g n.text g' h1 h2 h3 h4
  have k1 := numberLine_first hn.1 h (py"K-point") 75 (py"-point") rfl (by decide)
  have k2 := numberLine_first hn.1 h (py"Spin component") 83 (py"pin component") rfl (by decide)
  have k3 := eig_match EIG_RE (by rw [EIG_eq]) n hn
  rw [step, k1, if_neg (by simp), k2, if_neg (by simp), hst, if_pos k3]

theorem steps_numbers {ls : List Str} {ns : List Numeral} (h : List.Forall₂ NumberLine ls ns) (hn : ∀ n ∈ ns, Decimal n)
    (rest : List Str) : ∀ s : State, steps s (ls ++ rest) = steps { s with accum := s.accum ++ ns.map Numeral.text } rest := by
  induction h with
  | nil => intro s; simp
  | @cons l n ls ns h1 _ ih =>
    intro s
    rw [List.cons_append, steps, step_number s (hn n (by simp)) h1]
    show steps _ (ls ++ rest) = _
    rw [ih (fun m hm => hn m (by simp [hm]))]
    simp

theorem steps_append_nil (s : State) : steps s [] = .ok s := rfl

theorem step_spin (s : State) {i : Nat} {line : Str} (h : SpinLine i line) :
    step s line = if (i : Int) ≠ 1 then (do
      let v ← to_type .float (strList s.accum)
      return { s with qdata := s.qdata.set (.str (py"band_up")) v, accum := [], current := py"band_down" })
    else .ok s := by
  obtain ⟨⟨r, hr⟩, n, more, hf, hv, hi, hk⟩ := h
  have k1 : Str.startsWith line (py"K-point") = false := by rw [hr]; rfl
  have k2 : Str.startsWith line (py"Spin component") = true := (startsWith_iff _ _).2 ⟨r, hr⟩
  have hs : spinOf line = .ok i := by
    rw [spinOf, fields_split hf]
    show pyInt n.text = _
    rw [(pyInt_isInt n hv hi).1, ← hk]; rfl
  rw [step, k1, if_neg (by simp), k2, if_pos rfl, hs]
  show (if (i : Int) ≠ 1 then _ else _ : PyM State) = _
  split <;> rfl

/-- Between k-points. -/
def Idle (s : State) : Prop := s.qdata = [] → s.accum = [] ∧ s.current = py"band"

theorem step_kpoint (rd fl : Numeral → F64) (s : State) (l : List PyVal) (hb : bands s = .ok l) (hi : Idle s) {k : KPoint} {line : Str}
    (h : KLine k line) (hr : ∀ n ∈ k.qpt, parse_float_or_rational n.text = .ok (rd n))
    (hw : pyFloat k.weight.text = .ok (fl k.weight)) :
    step s line = .ok { bands := l, qdata := [(.str (py"qpt"), .tuple (k.qpt.map fun n => .float (rd n))),
      (.str (py"weight"), .float (fl k.weight))], accum := [], current := py"band" } := by
  obtain ⟨⟨r, hr'⟩, idx, hf⟩ := h
  have k1 : Str.startsWith line (py"K-point") = true := (startsWith_iff _ _).2 ⟨r, hr'⟩
  have hfl : flush s = .ok { s with bands := l, accum := [], current := py"band" } := by
    rw [flush]
    cases hq : s.qdata with
    | nil =>
      obtain ⟨e1, e2⟩ := hi hq
      have : l = s.bands := by
        rw [bands, hq, if_pos (by rfl)] at hb
        cases hb; rfl
      obtain ⟨b, q, a, c⟩ := s
      subst this
      simp only at e1 e2 hq
      subst e1 e2 hq
      rfl
    | cons kv d =>
      rw [bands, hq, if_neg (by simp)] at hb
      rw [if_neg (by simp), hb]
      show Except.ok _ = _
      rw [← hq]
  have hk : kpoint line = .ok [(.str (py"qpt"), .tuple (k.qpt.map fun n => .float (rd n))),
      (.str (py"weight"), .float (fl k.weight))] := by
    rw [kpoint, fields_split hf, unpack_words]
    show (to_type .float (strList (k.qpt.map Numeral.text)) >>= fun q => pyFloat k.weight.text >>= fun w =>
      pure [(.str (py"qpt"), q), (.str (py"weight"), .float w)] : PyM (Dict Key PyVal)) = _
    rw [to_type_strList .float k.qpt Numeral.text (fun n => .float (rd n)) fun n hn => typeParser_float (hr n hn)]
    show (pyFloat k.weight.text >>= fun w =>
      pure [(.str (py"qpt"), _), (.str (py"weight"), .float w)] : PyM (Dict Key PyVal)) = _
    rw [hw]; rfl
  rw [step, k1, if_pos rfl, hfl]
  show (do let q ← kpoint line; pure _ : PyM _) = _
  rw [hk]; rfl

theorem steps_cons (s s' : State) (l : Str) (ls : List Str) (h : step s l = .ok s') : steps s (l :: ls) = steps s' ls := by
  rw [steps, h]; rfl

/-- The lines of a k-point add its entry. -/
theorem steps_kpoint (rd fl : Numeral → F64) (s : State) (l : List PyVal) (hb : bands s = .ok l) (hi : Idle s) {k : KPoint}
    {ls : List Str} (h : k.Lines ls) (hok : k.Ok) (hr : ∀ n ∈ k.nums, parse_float_or_rational n.text = .ok (rd n))
    (hw : pyFloat k.weight.text = .ok (fl k.weight)) (rest : List Str) :
    ∃ s', steps s (ls ++ rest) = steps s' rest ∧ bands s' = .ok (l ++ [k.entry rd fl]) ∧ Idle s' := by
  obtain ⟨head, one, up, h1, h2, h3, h4⟩ := h
  obtain ⟨-, d1, d2⟩ := hok
  have hs1 := step_kpoint rd fl s l hb hi h1 (fun n hn => hr n (by simp [KPoint.nums, hn])) hw
  have vals : ∀ ns : List Numeral, (∀ n ∈ ns, n ∈ k.nums) →
      to_type .float (strList (ns.map Numeral.text)) = .ok (.tuple (ns.map fun n => .float (rd n))) :=
    fun ns hns => to_type_strList .float ns Numeral.text _ fun n hn => typeParser_float (hr n (hns n hn))
  have vup := vals k.up (fun n hn => by simp [KPoint.nums, hn])
  obtain ⟨q, w, u, dn⟩ := k
  cases dn with
  | none =>
    obtain rfl : ls = head :: one :: up := h4
    refine ⟨⟨l, [(.str (py"qpt"), .tuple (q.map fun n => .float (rd n))),
        (.str (py"weight"), .float (fl w))], [] ++ u.map Numeral.text, py"band"⟩, ?_, ?_, ?_⟩
    · rw [List.cons_append, steps_cons _ _ _ _ hs1, List.cons_append,
        steps_cons _ _ _ _ ((step_spin _ h2).trans (if_neg (by simp))), steps_numbers h3 d1]
    · rw [bands, if_neg (by simp), finish]
      simp only [List.nil_append]
      rw [vup]
      rfl
    · intro e; cases e
  | some d =>
    obtain ⟨two, down, h5, h6, rfl⟩ := h4
    have vdn := vals d (fun n hn => by simp [KPoint.nums, hn])
    refine ⟨⟨l, [(.str (py"qpt"), .tuple (q.map fun n => .float (rd n))),
        (.str (py"weight"), .float (fl w)), (.str (py"band_up"), .tuple (u.map fun n => .float (rd n)))],
        [] ++ d.map Numeral.text, py"band_down"⟩, ?_, ?_, ?_⟩
    · have : head :: one :: up ++ two :: down ++ rest = head :: one :: (up ++ (two :: (down ++ rest))) := by simp
      rw [this, steps_cons _ _ _ _ hs1, steps_cons _ _ _ _ ((step_spin _ h2).trans (if_neg (by simp))), steps_numbers h3 d1]
      rw [steps_cons _ _ _ _ ((step_spin _ h5).trans ((if_pos (by decide)).trans (by
        simp only [List.nil_append]
        rw [vup]; rfl))), steps_numbers h6 d2]
      rfl
    · rw [bands, if_neg (by simp), finish]
      simp only [List.nil_append]
      rw [vdn]
      rfl
    · intro e; cases e

theorem steps_kpoints (rd fl : Numeral → F64) {ks : List KPoint} {lines : List (List Str)}
    (h : List.Forall₂ KPoint.Lines ks lines) (hok : ∀ k ∈ ks, k.Ok)
    (hr : ∀ k ∈ ks, ∀ n ∈ k.nums, parse_float_or_rational n.text = .ok (rd n))
    (hw : ∀ k ∈ ks, pyFloat k.weight.text = .ok (fl k.weight)) :
    ∀ (s : State) (l : List PyVal), bands s = .ok l → Idle s →
    ∃ s', steps s lines.flatten = .ok s' ∧ bands s' = .ok (l ++ ks.map (KPoint.entry rd fl)) := by
  induction h with
  | nil => intro s l hb _; exact ⟨s, rfl, by simpa using hb⟩
  | @cons k ls ks lines h1 _ ih =>
    intro s l hb hi
    obtain ⟨s', e, hb', hi'⟩ := steps_kpoint rd fl s l hb hi h1 (hok k (by simp)) (hr k (by simp)) (hw k (by simp)) lines.flatten
    obtain ⟨s'', e', hb''⟩ := ih (fun k hk => hok k (by simp [hk])) (fun k hk => hr k (by simp [hk]))
      (fun k hk => hw k (by simp [hk])) s' _ hb' hi'
    exact ⟨s'', by rw [List.flatten_cons, e, e'], by rw [hb'']; simp⟩

end Bands

/-! ### The header of a band structure file -/

theorem plain_nil : Plain [] := ⟨[], fields_blank (by intro c hc; cases hc), by simp⟩

/-- The first line of the block. -/
theorem note_nil (opt : Str) (ho : opt ≠ []) : (HeadItem.note false []).Lines opt [[]] := by
  refine ⟨[], rfl, ?_, ?_, plain_nil, ?_, .inl ⟨rfl, by simp⟩, by simp⟩
  · rintro ⟨g, r, e, -⟩; simp at e
  · rintro ⟨g, r, e⟩; simp at e
  · constructor
    · intro h; cases h
    · rintro ⟨g, r, e⟩; simp at e; exact absurd e.2.1 ho

theorem header_keys (opt : Str) (rd : Numeral → F64) (items : List HeadItem) : (headerOf opt rd items).keys.Nodup := by
  rw [headerOf]
  apply Dict.nodup_set
  rw [Dict.ofList]
  have : ∀ (l : List (Key × PyVal)) (d : Dict Key PyVal), d.keys.Nodup →
      (l.foldl (fun d kv => Dict.set d kv.1 kv.2) d).keys.Nodup := by
    intro l
    induction l with
    | nil => intro d hd; exact hd
    | cons kv l ih => intro d hd; exact ih _ (Dict.nodup_set _ _ _ hd)
  exact this _ _ (by simp [Dict.keys])

theorem mem_keys_foldl (l : List (Key × PyVal)) : ∀ (d : Dict Key PyVal) (k : Key),
    k ∈ (l.foldl (fun d kv => Dict.set d kv.1 kv.2) d).keys ↔ k ∈ d.keys ∨ k ∈ l.map Prod.fst := by
  induction l with
  | nil => simp
  | cons kv l ih =>
    intro d k
    rw [List.foldl_cons, ih, Dict.mem_keys_set]
    simp
    tauto

end Verif

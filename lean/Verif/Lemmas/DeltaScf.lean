import Verif.Spec.DeltaScf
import Verif.Lemmas.Params
import Verif.Lemmas.Scf
import Verif.Model.CastepTables
/-
The report on the states of a delta SCF calculation.
-/
namespace Verif
open Spec Castep Re NumRe AtomRe

set_option maxRecDepth 4000

/-- Matches without the character `c` do not cross it. -/
theorem findFrom_cut (p : Pat) (c : Nat) (hc : ∀ w, Re.Lang p.re w → w ≠ [] ∧ c ∉ w) (R : Str) :
    ∀ (n : Nat) (A : Str), A.length ≤ n → ∀ (pre : Str) (fuel : Nat), A.length < fuel →
      ∃ ms k, fuel ≤ k + A.length ∧ p.findFrom fuel pre (A ++ c :: R) = ms ++ p.findFrom k (c :: (A.reverse ++ pre)) R := by
  intro n
  induction n with
  | zero =>
    intro A hA pre fuel hf
    obtain rfl : A = [] := List.length_eq_zero_iff.1 (by omega)
    obtain ⟨fuel, rfl⟩ : ∃ f, fuel = f + 1 := ⟨fuel - 1, by simp at hf; omega⟩
    refine ⟨[], fuel + 1, by simp, ?_⟩
    have h0 : p.matchAt pre (c :: R) = none := by
      cases hm : p.matchAt pre (c :: R) with
      | none => rfl
      | some x =>
        obtain ⟨e, -, hl, -⟩ := Pat.matchAt_some hm
        obtain ⟨h1, h2⟩ := hc _ hl
        cases hw : x.whole with
        | nil => exact absurd hw h1
        | cons a w => rw [hw] at e; injection e with e; exact absurd (by rw [hw, e]; simp) h2
    simp only [List.nil_append, List.reverse_nil]
    rw [Pat.findFrom, Pat.findFrom, Pat.searchFrom, h0]
  | succ n ih =>
    intro A hA pre fuel hf
    cases A with
    | nil => exact ih [] (by simp) pre fuel hf
    | cons a A =>
      obtain ⟨fuel, rfl⟩ : ∃ f, fuel = f + 1 := ⟨fuel - 1, by simp at hf; omega⟩
      simp only [List.length_cons] at hA hf
      cases hm : p.matchAt pre (a :: A ++ c :: R) with
      | none =>
        obtain ⟨ms, k, hk, e⟩ := ih A (by omega) (a :: pre) (fuel + 1) (by omega)
        refine ⟨ms, k, by simp; omega, ?_⟩
        rw [← show p.findFrom (fuel + 1) (a :: pre) (A ++ c :: R) = p.findFrom (fuel + 1) pre (a :: A ++ c :: R) by
          rw [Pat.findFrom, Pat.findFrom, List.cons_append, Pat.searchFrom, ← List.cons_append, hm], e]
        simp
      | some x =>
        obtain ⟨e, hb, hl, -⟩ := Pat.matchAt_some hm
        obtain ⟨h1, h2⟩ := hc _ hl
        obtain ⟨A', hA', ha⟩ : ∃ A', a :: A = x.whole ++ A' ∧ x.after = A' ++ c :: R := by
          rcases List.append_eq_append_iff.1 e with ⟨y, hy, hz⟩ | ⟨y, hy, hz⟩
          · cases y with
            | nil => exact ⟨[], by simp at hy; simp [hy], by simpa using hz.symm⟩
            | cons b y => injection hz with hz _; exact absurd (by rw [hy, ← hz]; simp) h2
          · exact ⟨y, hy, hz⟩
        have hlen : A'.length + x.whole.length = A.length + 1 := by
          have := congrArg List.length hA'
          simp at this; omega
        have hpos : 0 < x.whole.length := List.length_pos_of_ne_nil h1
        obtain ⟨ms, k, hk, e'⟩ := ih A' (by omega) (x.whole.reverse ++ x.before.reverse) fuel (by omega)
        refine ⟨x :: ms, k, by simp; omega, ?_⟩
        have hs : p.searchFrom pre (a :: A ++ c :: R) = some x := by
          rw [List.cons_append, Pat.searchFrom, ← List.cons_append, hm]
        rw [Pat.findFrom, hs]
        simp only
        rw [if_neg (by simpa using h1), ha, e', hb, hA']
        simp

namespace Castep.Delta

theorem text_under (n : Numeral) (hn : n.Valid) : 95 ∉ n.text := by
  obtain ⟨sg, ip, fr, ex⟩ := n
  obtain ⟨h1, h2, -, h4⟩ := hn
  have hs : ∀ sg, 95 ∉ Numeral.signText sg := by
    intro sg hm
    match sg, hm with
    | some true, hm => simp [Numeral.signText] at hm
    | some false, hm => simp [Numeral.signText] at hm
  intro hc
  simp only [Numeral.text, List.mem_append] at hc
  rcases hc with ((hc | hc) | hc) | hc
  · exact hs sg hc
  · have := h1 _ hc; omega
  · match fr, h2, hc with
    | some fr, h2, hc =>
      simp [Numeral.fracText] at hc
      have := h2 _ hc; omega
  · match ex, h4, hc with
    | some (up, sg', ds), h4, hc =>
      have h5 := (h4 _ rfl).1
      simp only [Numeral.expText, List.mem_append] at hc
      rcases hc with (hc | hc) | hc
      · cases up <;> simp at hc
      · exact hs sg' hc
      · have := h5 _ hc; omega

/-- The numbers after an underscore are found whatever stands before it. -/
theorem get_numbers_seed (seed : Str) {a b : Numeral} (ha : a.Valid) (hb : b.Valid) {g : Str} (hg : Blank g) :
    ∃ ns, Res.get_numbers (seed ++ (py"_" ++ (a.text ++ (py"_" ++ (b.text ++ g))))) = ns ++ [a.text, b.text] := by
  obtain ⟨ms, k, hk, e⟩ := findFrom_cut Res.NUMBER_RE 95 (by
    intro w hw
    rw [NUMBER_eq] at hw
    obtain ⟨n, hn, rfl⟩ := lang_N (show Re.Lang N w from hw)
    exact ⟨text_ne_nil n hn, text_under n hn⟩) (a.text ++ (py"_" ++ (b.text ++ g))) _ seed le_rfl [] ((seed ++ (py"_" ++ (a.text ++ (py"_" ++ (b.text ++ g))))).length + 1) (by simp; omega)
  have hnt : NumTail [(a, py"_"), (b, g)] := by
    refine .cons a _ _ ha (by decide) (by intro c hc; obtain rfl := List.mem_singleton.1 hc; rfl)
      ⟨by rintro c ⟨⟩; rfl, by decide, by decide, by decide⟩ (by rintro c ⟨⟩; decide) (.last b g hb ?_ ?_)
    · intro c hc
      cases hd : isDigit c with
      | false => rfl
      | true => have := digit_nospace ((isDigit_iff c).1 hd); rw [hg c hc] at this; cases this
    · cases g with
      | nil => exact EndsNumber.nil
      | cons c g => exact EndsNumber.space (hg c (by simp))
  have h := find_numbers [(a, py"_"), (b, g)] [] (95 :: (seed.reverse ++ [])) k hnt (by intro c hc; cases hc) (by simp) (by simp) (by
    simp at hk ⊢; omega)
  refine ⟨ms.map (·.whole), ?_⟩
  rw [Res.get_numbers, Pat.findall, Pat.finditer]
  rw [show seed ++ (py"_" ++ (a.text ++ (py"_" ++ (b.text ++ g)))) = seed ++ 95 :: (a.text ++ (py"_" ++ (b.text ++ g))) from rfl] at *
  rw [e, List.map_append]
  congr 1
  rw [← show ([] : Str) ++ numText [(a, py"_"), (b, g)] = a.text ++ (py"_" ++ (b.text ++ g)) by simp [numText]]
  exact h

theorem ok_bind {α β : Type} (a : α) (f : α → PyM β) : (Except.ok a >>= f) = f a := rfl

theorem intV_ok {n : Numeral} (hn : n.Valid) (hi : n.IsInt) : intV n.text = .ok (.int (intOf n)) := by
  rw [intV, (pyInt_isInt n hn hi).1]; rfl

theorem at_ok {l : List α} {i : Nat} {x : α} (h : l[i]? = some x) : at_ l i = .ok x := by rw [at_, h]

theorem split_last {l : Str} {ws : List Str} {w : Str} (h : Fields l (ws ++ [w])) : last_ (Str.split l) = .ok w := by
  rw [(fields_iff l _).1 h, last_]; simp

theorem starts {l : Str} (h : DeltaItem.Source l) : Str.startsWith l (py"Taking band from") = true := (startsWith_iff _ _).2 h
theorem starts_not {l : Str} (h : ¬ DeltaItem.Source l) : Str.startsWith l (py"Taking band from") = false := by
  rw [← Bool.not_eq_true, startsWith_iff]; exact h

theorem occ {w l : Str} (h : Occurs w l) : Str.contains w l = true := (Str.contains_iff _ _).2 h
theorem occ_not {w l : Str} (h : ¬ Occurs w l) : Str.contains w l = false := by
  rw [← Bool.not_eq_true, Str.contains_iff]; exact h

/-- A state and what has been said about it. -/
structure Entry where
  band : Numeral
  spin : Numeral
  said : List (Key × PyVal)

namespace Entry

/-- Its dictionary. -/
def dict (x : Entry) : Dict Key PyVal := Dict.ofList x.said

/-- Band and spin are known. -/
def Known (x : Entry) : Prop :=
  x.dict.get? (.str (py"band")) = some (.int (intOf x.band)) ∧ x.dict.get? (.str (py"spin")) = some (.int (intOf x.spin))

/-- One more entry. -/
def more (x : Entry) (o : Option (Key × PyVal)) : Entry := { x with said := x.said ++ o.toList }

theorem more_none (x : Entry) : x.more none = x := by simp [more]

theorem more_dict (x : Entry) (k : Key) (v : PyVal) : (x.more (some (k, v))).dict = x.dict.set k v := by
  simp only [more, dict, Option.toList]
  exact Params.ofList_snoc _ _ _

theorem Known.more {x : Entry} (h : x.Known) {k : Key} {v : PyVal} (h1 : k ≠ .str (py"band")) (h2 : k ≠ .str (py"spin")) :
    (x.more (some (k, v))).Known := by
  rw [Known, more_dict]
  exact ⟨by rw [Dict.get?_set_ne _ _ _ _ h1.symm]; exact h.1, by rw [Dict.get?_set_ne _ _ _ _ h2.symm]; exact h.2⟩

end Entry

/-- Setting something for the state of this band and spin. -/
theorem setMatching_eq (b s : Numeral) (k : Key) (v : PyVal) : ∀ (xs : List Entry), (∀ x ∈ xs, x.Known) →
    setMatching (.int (intOf b)) (.int (intOf s)) k v (xs.map Entry.dict) =
      .ok ((xs.map fun x => x.more (if DeltaItem.Same x.band x.spin b s then some (k, v) else none)).map Entry.dict)
  | [], _ => rfl
  | x :: xs, h => by
    obtain ⟨h1, h2⟩ := h x (by simp)
    rw [List.map_cons, setMatching, Dict.getItem, h1]
    simp only [List.map_cons]
    rw [setMatching_eq b s k v xs fun y hy => h y (by simp [hy])]
    simp only [ok_bind]
    by_cases e1 : intOf b = intOf x.band
    · rw [if_pos (by rw [e1]), Dict.getItem, h2]
      by_cases e2 : intOf s = intOf x.spin
      · rw [if_pos ⟨e1, e2⟩, Entry.more_dict]
        simp only [ok_bind, e2, if_true]
        rfl
      · rw [if_neg (fun h => e2 h.2), Entry.more_none]
        simp only [ok_bind]
        rw [if_neg (by intro h; injection h with h; exact e2 h.symm)]
        rfl
    · rw [if_neg (by intro h; injection h with h; exact e1 h.symm), if_neg (fun h => e1 h.1), Entry.more_none]
      rfl

theorem known_more {xs : List Entry} (h : ∀ x ∈ xs, x.Known) (b s : Numeral) {k : Key} {v : PyVal} (h1 : k ≠ .str (py"band")) (h2 : k ≠ .str (py"spin")) :
    ∀ x ∈ xs.map (fun x => x.more (if DeltaItem.Same x.band x.spin b s then some (k, v) else none)), x.Known := by
  intro x hx
  obtain ⟨y, hy, rfl⟩ := List.mem_map.1 hx
  split
  · exact (h y hy).more h1 h2
  · rw [Entry.more_none]; exact h y hy

/-- The entries after an item. -/
def after (rd : Numeral → F64) (xs : List Entry) : DeltaItem → List Entry
  | .state b s => xs ++ [⟨b, s, [(.str (py"band"), .int (intOf b)), (.str (py"spin"), .int (intOf s))]⟩]
  | it => xs.map fun x => x.more (DeltaItem.about rd x.band x.spin it)

def src (f : Option Str) : DeltaItem → Option Str
  | .source n => some n
  | _ => f

theorem after_id {xs : List Entry} : (xs.map fun x => x.more none) = xs := by
  simp [Entry.more_none]

theorem item_step {rd : Numeral → F64} (hrd : ∀ n : Numeral, n.Valid → n.InRange → pyFloat n.text = .ok (rd n))
    (it : DeltaItem) (ls : List Str) (h : it.Lines ls) (hok : it.Ok) (f : Option Str) (xs : List Entry) (hk : ∀ x ∈ xs, x.Known) :
    foldLines deltaLine (f, xs.map Entry.dict) ls = .ok (src f it, (after rd xs it).map Entry.dict) ∧ ∀ x ∈ after rd xs it, x.Known := by
  cases it with
  | source name =>
    obtain ⟨l, ws, rfl, hs, hf⟩ := h
    refine ⟨?_, by simpa [after, DeltaItem.about, Entry.more_none] using hk⟩
    rw [foldLines_cons (t := (some name, xs.map Entry.dict))]
    · simp [after, DeltaItem.about, Entry.more_none, foldLines, src]
    · rw [deltaLine, if_pos (starts hs), split_last hf]; rfl
  | state b s =>
    obtain ⟨l₁, l₂, l₃, ns, ms, rfl, ⟨s1, o1⟩, ⟨s2, w2, o2, n2, v2⟩, s3, w3, o3, n3, v3⟩ := h
    obtain ⟨⟨vb, ib⟩, vs, is⟩ := hok
    refine ⟨?_, ?_⟩
    · rw [foldLines_cons (t := (f, xs.map Entry.dict ++ [[]])), foldLines_cons (t := (f, xs.map Entry.dict ++ [[(.str (py"band"), .int (intOf b))]])),
        foldLines_cons (t := (f, (after rd xs (.state b s)).map Entry.dict))]
      · rfl
      · simp only [deltaLine, starts_not s3, occ_not (w3 _ (List.mem_cons_self ..)), occ_not (w3 (py"nr.") (by simp)), occ o3, Bool.false_eq_true, if_false, if_true]
        rw [get_numbers_has n3 (by intro n hn; rcases List.mem_cons.1 hn with rfl | hn; exacts [vs, v3 n hn]), at_ok rfl]
        simp only [ok_bind, intV_ok vs is, setLast]
        simp [after, Entry.dict, Dict.ofList, Dict.set]
      · simp only [deltaLine, starts_not s2, occ_not (w2 _ (List.mem_cons_self ..)), occ o2, Bool.false_eq_true, if_false, if_true]
        rw [get_numbers_has n2 (by intro n hn; rcases List.mem_cons.1 hn with rfl | hn; exacts [vb, v2 n hn]), at_ok rfl]
        simp only [ok_bind, intV_ok vb ib, setLast]
        simp [Dict.set]
      · simp only [deltaLine, starts_not s1, occ o1, Bool.false_eq_true, if_false, if_true]
    · intro x hx
      rcases List.mem_append.1 hx with hx | hx
      · exact hk x hx
      · obtain rfl := List.mem_singleton.1 hx
        exact ⟨rfl, rfl⟩
  | pop b s n =>
    obtain ⟨l, ns, rfl, hs, hw, ho, hn, hv⟩ := h
    obtain ⟨⟨vb, ib⟩, ⟨vs, is⟩, vn, rn⟩ := hok
    have hall : ∀ m ∈ b :: s :: n :: ns, m.Valid := by
      intro m hm
      simp only [List.mem_cons] at hm
      rcases hm with rfl | rfl | rfl | hm
      exacts [vb, vs, vn, hv m hm]
    refine ⟨?_, known_more hk b s (by decide) (by decide)⟩
    rw [foldLines_cons (t := (f, (after rd xs (.pop b s n)).map Entry.dict))]
    · rfl
    · simp only [deltaLine, starts_not hs, occ_not (hw _ (List.mem_cons_self ..)), occ_not (hw (py"nr.") (by simp)), occ_not (hw (py"spin") (by simp)), occ ho,
        Bool.false_eq_true, if_false, if_true]
      rw [Scf.floatAt_eq hn hall 2 rfl, LineTab.floatV_ok (hrd n vn rn), get_numbers_has hn hall, at_ok rfl, at_ok rfl]
      simp only [ok_bind, intV_ok vb ib, intV_ok vs is, setMatching_eq b s _ _ xs hk]
      rfl
  | file b s name =>
    obtain ⟨l, seed, g, ws, rfl, hs, hw, ho, e, hg, hf⟩ := h
    obtain ⟨⟨vb, ib⟩, vs, is⟩ := hok
    refine ⟨?_, known_more hk b s (by decide) (by decide)⟩
    rw [foldLines_cons (t := (f, (after rd xs (.file b s name)).map Entry.dict))]
    · rfl
    · simp only [deltaLine, starts_not hs, occ_not (hw _ (List.mem_cons_self ..)), occ_not (hw (py"nr.") (by simp)), occ_not (hw (py"spin") (by simp)),
        occ_not (hw (py"Population of state") (by simp)), occ ho, Bool.false_eq_true, if_false, if_true]
      obtain ⟨ns, hn⟩ := get_numbers_seed seed vb vs hg
      rw [split_last hf, e, hn, show lastTwo (ns ++ [b.text, s.text]) = [b.text, s.text] by simp [lastTwo]]
      simp only [ok_bind, intV_ok vb ib, intV_ok vs is, setMatching_eq b s _ _ xs hk]
      rfl
  | other =>
    obtain ⟨l, rfl, hs, hw⟩ := h
    refine ⟨?_, by simpa [after, DeltaItem.about, Entry.more_none] using hk⟩
    rw [foldLines_cons (t := (f, xs.map Entry.dict))]
    · simp [after, DeltaItem.about, Entry.more_none, foldLines, src]
    · simp only [deltaLine, starts_not hs, occ_not (hw _ (List.mem_cons_self ..)), occ_not (hw (py"nr.") (by simp)), occ_not (hw (py"spin") (by simp)),
        occ_not (hw (py"Population of state") (by simp)), occ_not (hw (py"Writing file") (by simp)), Bool.false_eq_true, if_false]

/-- The entries at the end, from those known so far. -/
theorem items_fold {rd : Numeral → F64} (hrd : ∀ n : Numeral, n.Valid → n.InRange → pyFloat n.text = .ok (rd n))
    {items : List DeltaItem} {ls : List (List Str)} (h : List.Forall₂ DeltaItem.Lines items ls) :
    (∀ i ∈ items, i.Ok) → ∀ (f : Option Str) (xs : List Entry), (∀ x ∈ xs, x.Known) →
      foldLines deltaLine (f, xs.map Entry.dict) ls.flatten =
          .ok (items.foldl src f, (items.foldl (after rd) xs).map Entry.dict) := by
  induction h with
  | nil => intro _ f xs _; rfl
  | @cons it l items ls hl _ ih =>
    intro hok f xs hk
    obtain ⟨h1, h2⟩ := item_step hrd it l hl (hok it (by simp)) f xs hk
    rw [List.flatten_cons, BandTab.foldLines_append, h1]
    exact ih (fun i hi => hok i (by simp [hi])) _ _ h2

theorem after_said (rd : Numeral → F64) : ∀ (items : List DeltaItem) (xs : List Entry),
    (items.foldl (after rd) xs).map Entry.said = (xs.map fun x => x.said ++ items.filterMap (DeltaItem.about rd x.band x.spin)) ++ deltaStates rd items
  | [], xs => by simp [deltaStates]
  | it :: items, xs => by
    rw [List.foldl_cons, after_said rd items]
    have key : ∀ it : DeltaItem, after rd xs it = (xs.map fun x => x.more (DeltaItem.about rd x.band x.spin it)) →
        deltaStates rd (it :: items) = deltaStates rd items →
        (after rd xs it).map (fun x => x.said ++ items.filterMap (DeltaItem.about rd x.band x.spin)) ++ deltaStates rd items =
          (xs.map fun x => x.said ++ (it :: items).filterMap (DeltaItem.about rd x.band x.spin)) ++ deltaStates rd (it :: items) := by
      intro it h1 h2
      rw [h1, h2, List.map_map]
      congr 1
      apply List.map_congr_left
      intro x _
      simp only [Function.comp, Entry.more, List.append_assoc, List.filterMap_cons]
      cases DeltaItem.about rd x.band x.spin it <;> rfl
    cases it with
    | state b s =>
      simp only [after, deltaStates, List.map_append, List.map_cons, List.map_nil, List.append_assoc, List.cons_append, List.nil_append]
      rfl
    | _ => exact key _ rfl rfl

theorem src_last : ∀ (items : List DeltaItem) (f : Option Str), items.foldl src f = (deltaSource items).or f
  | [], f => rfl
  | it :: items, f => by
    rw [List.foldl_cons, src_last items, deltaSource, deltaSource, List.filterMap_cons]
    cases it with
    | source n =>
      simp only [src]
      rw [List.getLast?_cons]
      cases (items.filterMap fun | .source n => some n | _ => none).getLast? <;> rfl
    | _ => rfl

end Castep.Delta
end Verif

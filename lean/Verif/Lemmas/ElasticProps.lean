import Verif.Lemmas.Dftd
import Verif.Lemmas.CastepDoc
import Verif.Spec.ElasticProps
/- The elastic properties. -/
namespace Verif.Castep.ElasticTab
open Verif Re NumRe AtomRe Spec Castep

theorem beforeSub_eq : ∀ (name v : Str), ¬ Occurs (py"::") (name ++ py":") → beforeSub (py"::") (name ++ (py"::" ++ v)) = name
  | [], v, _ => by simp [beforeSub, Str.startsWith]
  | c :: name, v, h => by
    have hs : ¬ Str.startsWith (c :: (name ++ (py"::" ++ v))) (py"::") = true := by
      intro hs
      obtain ⟨r, e⟩ := (startsWith_iff _ _).1 hs
      rw [List.cons_append] at e
      injection e with e1 e2
      subst e1
      cases name with
      | nil => exact h ⟨[], [], rfl⟩
      | cons d name =>
        rw [List.cons_append] at e2
        injection e2 with e3 _
        subst e3
        exact h ⟨[], name ++ py":", by simp⟩
    rw [List.cons_append, beforeSub, if_neg hs, beforeSub_eq name v]
    rintro ⟨a, b, e⟩
    exact h ⟨c :: a, b, by rw [List.cons_append, e]; simp⟩

theorem names_speed : Names SPEED_RE (py"Speed of Sound") := names_lit (by decide +kernel)

theorem block_sound {title : Str} {inner : List Str} {last : Str} (rest : List Str) (h1 : Occurs (py"Speed of Sound") title)
    (h2 : ∀ l ∈ inner, ¬ Blank l) (h3 : Blank last) :
    blockOf (found SPEED_RE) (found EMPTY_RE) 1 false title (inner ++ last :: rest) = .ok (some (title :: (inner ++ [last])), rest) := by
  have hf : inner.filter (found EMPTY_RE) = [] := by
    rw [List.filter_eq_nil_iff]; intro a ha; simp [stops_empty.2 a (h2 a ha)]
  rw [blockOf, from_re_lines _ _ title inner last rest _ false ((names_speed _).2 h1) (by rw [hf]; rfl) (stops_empty.1 last h3)]
  simp [Block.truthy, _root_.Verif.strip_occurs h1 (c := 83) (by decide) (by decide)]

theorem block_miss {l : Str} (rest : List Str) (h : ¬ Occurs (py"Speed of Sound") l) :
    blockOf (found SPEED_RE) (found EMPTY_RE) 1 false l rest = .ok (none, rest) := by
  rw [blockOf, Block.from_re, names_speed.false h]; rfl

/-- A row of the speeds of sound. -/
def rowOf (l : Str) : PyM (Option PyVal) :=
  match Res.get_numbers l with
  | [] => .ok none
  | n :: ns => do
    let v ← to_type .float (strList (n :: ns))
    return some v

theorem after_row {ls : List Str} {rs : List (List Numeral)} {ignore : Str → Prop} {Row : Str → List Numeral → Prop} (h : Interleaved ignore Row ls rs) {l : Str}
    (hl : ignore l) : Interleaved ignore Row (ls ++ [l]) rs := by
  induction h with
  | nil => exact .skip hl .nil
  | skip h _ ih => exact .skip h ih
  | row h _ ih => exact .row h ih

theorem loop_cons (f : Nat) (line : Str) (rest : List Str) (d : Dict Key PyVal) : elasticLoop (f + 1) (line :: rest) d =
    (if Str.contains (py"::") line then do
       let v ← numbersOf line
       elasticLoop f rest (d.set (.str (normalise_key (beforeSub (py"::") line))) (match elems v with | [x] => x | _ => v))
     else do
       match ← blockOf (found SPEED_RE) (found EMPTY_RE) 1 false line rest with
       | (some b, rest) => do
         let rows ← collect rowOf b
         elasticLoop f rest (d.set (.str (py"speed_of_sound")) (.tuple rows))
       | (none, rest) => elasticLoop f rest d) := by rfl

theorem rowOf_none {l : Str} (h : HasNumbers l []) : rowOf l = .ok none := by
  rw [rowOf, get_numbers_has h (by simp)]; rfl

theorem rowOf_some {rd : Numeral → F64} (hrd : ∀ n : Numeral, n.Valid → n.InRange → parse_float_or_rational n.text = .ok (rd n)) {l : Str} {ns : List Numeral}
    (h : ns ≠ [] ∧ HasNumbers l ns) (hok : ∀ n ∈ ns, n.Valid ∧ n.InRange) : rowOf l = .ok (some (ElasticItem.numbers rd ns)) := by
  obtain ⟨hne, h⟩ := h
  have e := numbersOf_of h (fun n hn => (hok n hn).1) fun n hn => hrd n (hok n hn).1 (hok n hn).2
  rw [numbersOf, get_numbers_has h fun n hn => (hok n hn).1] at e
  rw [rowOf, get_numbers_has h fun n hn => (hok n hn).1]
  cases ns with
  | nil => exact absurd rfl hne
  | cons n ns =>
    rw [List.map_cons] at e ⊢
    simp only [e]
    rfl

theorem loop {rd : Numeral → F64} (hrd : ∀ n : Numeral, n.Valid → n.InRange → parse_float_or_rational n.text = .ok (rd n))
    {items : List ElasticItem} {ls : List (List Str)} (h : List.Forall₂ ElasticItem.Lines items ls) :
    (∀ i ∈ items, ∀ n ∈ i.nums, n.Valid ∧ n.InRange) → ∀ (f : Nat) (es : List (Key × PyVal)), ls.flatten.length < f →
      elasticLoop f ls.flatten (Dict.ofList es) = .ok (Dict.ofList (es ++ items.filterMap (ElasticItem.entry rd))) := by
  induction h with
  | nil =>
    intro _ f es hf
    obtain ⟨f, rfl⟩ : ∃ k, f = k + 1 := ⟨f - 1, by simp at hf; omega⟩
    simp [elasticLoop]
  | @cons i a items ls hl _ ih =>
    intro hok f es hf
    obtain ⟨f, rfl⟩ : ∃ k, f = k + 1 := ⟨f - 1, by simp at hf; omega⟩
    have ih := ih (fun i hi => hok i (by simp [hi])) f
    have hi := hok i (by simp)
    rw [List.flatten_cons] at hf ⊢
    cases i with
    | value key ns =>
      obtain ⟨name, v, rfl, h1, hk, hn⟩ := hl
      have e := numbersOf_of hn (fun n hm => (hi n hm).1) fun n hm => hrd n (hi n hm).1 (hi n hm).2
      rw [List.singleton_append, loop_cons, if_pos ((Str.contains_iff _ _).2 ⟨name, v, by simp⟩), e, beforeSub_eq _ _ h1, LineTab.keyName hk]
      simp only [Delta.ok_bind, elems]
      have key : ∀ x, ElasticItem.entry rd (.value key ns) = some (.str key, x) →
          elasticLoop f ls.flatten (Dict.set (Dict.ofList es) (.str key) x) = .ok (Dict.ofList (es ++ (ElasticItem.value key ns :: items).filterMap (ElasticItem.entry rd))) := by
        intro x hx
        rw [← Params.ofList_snoc, ih _ (by rw [List.length_append, List.length_singleton] at hf; omega), List.filterMap_cons, hx]
        simp
      match ns with
      | [] => exact key _ rfl
      | [n] => exact key _ rfl
      | n :: m :: ns => exact key _ rfl
    | sound rows =>
      obtain ⟨title, inner, last, rfl, h1, h2, h3, h4, h5, h6⟩ := hl
      have hc : ¬ Str.contains (py"::") title = true := fun h => h1 ((Str.contains_iff _ _).1 h)
      have hlast : HasNumbers last [] := .inl ⟨rfl, fun c hc => by
        have := MdFrame.space_facts (h5 c hc)
        exact this.1⟩
      have hrows : Interleaved (fun l => HasNumbers l []) (fun l ns => ns ≠ [] ∧ HasNumbers l ns) (title :: (inner ++ [last])) rows := by
        refine .skip h3 ?_
        exact after_row h6 hlast
      have hcol := collect_rows (g := fun ns => some (ElasticItem.numbers rd ns)) (fun l hl => rowOf_none hl) hrows
        fun l ns hm hl => rowOf_some hrd hl fun n hn => hi n (List.mem_flatten.2 ⟨ns, hm, hn⟩)
      rw [List.cons_append, loop_cons, if_neg hc, List.append_assoc, List.singleton_append, block_sound _ h2 h4 h5]
      simp only [Delta.ok_bind]
      rw [hcol]
      simp only [Delta.ok_bind]
      rw [← Params.ofList_snoc, ih _ (by simp only [List.length_append, List.length_cons, List.length_nil] at hf; omega)]
      simp [ElasticItem.entry]
    | other =>
      obtain ⟨l, rfl, h1, h2⟩ := hl
      rw [List.singleton_append, loop_cons, if_neg (fun h => h1 ((Str.contains_iff _ _).1 h)), block_miss _ h2]
      simp only [Delta.ok_bind]
      rw [ih _ (by simp only [List.length_append, List.length_cons, List.length_nil] at hf; omega)]
      simp [List.filterMap_cons, ElasticItem.entry]

end Verif.Castep.ElasticTab

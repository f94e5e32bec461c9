import Verif.Lemmas.PspotStr
/- Whole definitions of pseudopotentials: additions and the result. -/
namespace Verif.Cell.Pspot
open Verif Re NumRe AtomRe Spec Cell

/-! ### Characters -/

/-- Characters without a meaning for the structure of a definition. -/
def Plain (c : Nat) : Prop := c ≠ 124 ∧ c ≠ 123 ∧ c ≠ 91 ∧ c ≠ 40 ∧ c ≠ 58

theorem num_plain {n : Numeral} (hn : n.Valid) : ∀ c ∈ n.text, Plain c := by
  intro c hc
  have := AtomVec.numeral_char n hn c hc
  unfold Plain
  omega

theorem proj_plain {p : Proj} (hp : p.Ok (Proj.PLUS ++ Proj.MINUS)) : ∀ c ∈ p.text, Plain c := by
  obtain ⟨h1, h2, h3, h4⟩ := hp
  intro c hc
  simp only [Proj.text, List.mem_cons, List.mem_append] at hc
  rcases hc with rfl | hc | hc | hc
  · simp at h1
    unfold Plain
    omega
  · cases hr : p.rc with
    | none => rw [hr] at hc; cases hc
    | some n => rw [hr] at hc; exact num_plain (h2 n hr).1 c hc
  · cases hr : p.energy with
    | none => rw [hr] at hc; cases hc
    | some e =>
      obtain ⟨mark, n⟩ := e
      rw [hr] at hc
      simp only [Proj.energyText, List.mem_append] at hc
      obtain ⟨hm, hn⟩ := h3 _ hr
      rcases hc with hc | hc
      · have : ∀ u ∈ Proj.PLUS ++ Proj.MINUS, ∀ c ∈ u, c = 61 ∨ c = 43 ∨ c = 45 := by decide
        have := this _ hm c hc
        unfold Plain
        omega
      · exact num_plain hn.1 c hc
  · cases hr : p.delta with
    | none => rw [hr] at hc; cases hc
    | some n =>
      rw [hr] at hc
      simp only [Proj.deltaText, List.mem_cons] at hc
      rcases hc with rfl | hc
      · unfold Plain; omega
      · exact num_plain (h4 n hr).1 c hc

theorem proj_mono {p : Proj} (hp : p.Ok Proj.PLUS) : p.Ok (Proj.PLUS ++ Proj.MINUS) :=
  ⟨hp.1, hp.2.1, fun e he => ⟨List.mem_append_left _ (hp.2.2.1 e he).1, (hp.2.2.1 e he).2⟩, hp.2.2.2⟩

theorem beta_plain {b : BetaFn} (hb : b.Ok Proj.PLUS) : ∀ c ∈ b.text, Plain c := by
  obtain ⟨h1, h2, h3⟩ := hb
  intro c hc
  simp only [BetaFn.text, List.mem_cons, List.mem_flatMap] at hc
  rcases hc with rfl | rfl | ⟨p, hp, hc⟩
  · unfold Plain; omega
  · unfold Plain; omega
  · exact proj_plain (proj_mono (h3 p hp)) c hc

theorem mem_join {c : Nat} {sep : Str} : ∀ {l : List Str}, c ∈ Str.join sep l → c ∈ sep ∨ ∃ s ∈ l, c ∈ s
  | [], h => by cases h
  | [a], h => .inr ⟨a, by simp, h⟩
  | a :: b :: l, h => by
    rw [Str.join, List.mem_append, List.mem_append] at h
    rcases h with (h | h) | h
    · exact .inr ⟨a, by simp, h⟩
    · exact .inl h
    · rcases mem_join h with h | ⟨s, hs, h⟩
      · exact .inl h
      · exact .inr ⟨s, by simp only [List.mem_cons] at hs ⊢; tauto, h⟩

theorem betaText_chars {p : PspotDef} (hp : p.Ok) : ∀ c ∈ p.betaText, c ≠ 124 ∧ c ≠ 123 ∧ c ≠ 91 ∧ c ≠ 40 := by
  intro c hc
  rcases mem_join hc with h | ⟨s, hs, h⟩
  · obtain rfl : c = 58 := by simpa using h
    decide
  · obtain ⟨b, hb, rfl⟩ := List.mem_map.1 hs
    obtain ⟨h1, h2, h3, h4, -⟩ := beta_plain (hp.2.2.2.2.2.2.1.2 b hb) c h
    exact ⟨h1, h2, h3, h4⟩

/-- The part of a definition before the additions has no bracket. -/
theorem front_chars {p : PspotDef} (hp : p.Ok) : ∀ c ∈ p.channel.text ++ body p p.betaText, c ≠ 123 ∧ c ≠ 91 ∧ c ≠ 40 := by
  intro c hc
  have hb := betaText_chars hp c
  obtain ⟨a1, a2, a3, a4, a5, a6, -⟩ := hp
  have hnum : ∀ n : Numeral, n.Valid → c ∈ n.text → c ≠ 123 ∧ c ≠ 91 ∧ c ≠ 40 := fun n hn h => ⟨(num_plain hn c h).2.1, (num_plain hn c h).2.2.1, (num_plain hn c h).2.2.2.1⟩
  have hr : c ∈ PspotDef.radiiText p.radii → c ≠ 123 ∧ c ≠ 91 ∧ c ≠ 40 := by
    intro h
    cases hq : p.radii with
    | none => rw [hq] at h; cases h
    | some q =>
      obtain ⟨b, r⟩ := q
      rw [hq] at h
      simp only [PspotDef.radiiText, List.mem_append, List.mem_cons, List.not_mem_nil, or_false] at h
      rcases h with h | rfl | h | rfl
      · exact hnum _ (a3 _ hq).1.1 h
      · decide
      · exact hnum _ (a3 _ hq).2.1 h
      · decide
  simp only [body, List.mem_append, List.mem_cons] at hc
  rcases hc with h | rfl | h | rfl | h | h | rfl | h | rfl | h | rfl | h
  · exact hnum _ a1.1.1 h
  · decide
  · exact hnum _ a2.1 h
  · decide
  · exact hr h
  · exact hnum _ a4.1 h
  · decide
  · exact hnum _ a5.1 h
  · decide
  · exact hnum _ a6.1 h
  · decide
  · exact ⟨(hb h).2.1, (hb h).2.2.1, (hb h).2.2.2⟩

/-! ### Additions -/

theorem shell_avoids {s : Str} (h : ShellOcc s) {c : Nat} (hc : avoids c SH = true) : c ∉ s := avoids_lang SH hc s (lang_SH h)

theorem items_chars {a : Addition} (ha : a.Ok) : ∀ s ∈ a.items, ∀ c ∈ s, c ≠ 44 ∧ c ≠ 123 ∧ c ≠ 125 ∧ c ≠ 91 ∧ c ≠ 93 ∧ c ≠ 40 ∧ c ≠ 41 := by
  obtain ⟨k, l⟩ := a
  have hsh : ∀ s, ShellOcc s → ∀ c ∈ s, c ≠ 44 ∧ c ≠ 123 ∧ c ≠ 125 ∧ c ≠ 91 ∧ c ≠ 93 ∧ c ≠ 40 ∧ c ≠ 41 := by
    intro s hs c hc
    refine ⟨?_, ?_, ?_, ?_, ?_, ?_, ?_⟩ <;> rintro rfl
    · exact shell_avoids hs (by decide) hc
    · exact shell_avoids hs (by decide) hc
    · exact shell_avoids hs (by decide) hc
    · exact shell_avoids hs (by decide) hc
    · exact shell_avoids hs (by decide) hc
    · exact shell_avoids hs (by decide) hc
    · exact shell_avoids hs (by decide) hc
  intro s hs c hc
  cases k with
  | adj => exact hsh s (ha.2 s hs) c hc
  | test =>
    rcases ha.2 with h | h
    · dsimp only at h hs
      rw [h] at hs
      obtain rfl : s = [] := by simpa using hs
      cases hc
    · exact hsh s (h s hs) c hc
  | flags =>
    have := ha.2.2 s hs c hc
    simp at this
    omega

theorem addition_chars {a : Addition} (ha : a.Ok) {k : AddKind} (hk : a.kind ≠ k) : k.opener ∉ a.text := by
  intro h
  simp only [Addition.text, List.mem_cons, List.mem_append, List.not_mem_nil, or_false] at h
  rcases h with h | h | h
  · revert hk h
    cases a.kind <;> cases k <;> simp [AddKind.opener]
  · rcases mem_join h with h | ⟨s, hs, h⟩
    · revert h
      cases k <;> simp [AddKind.opener]
    · have := items_chars ha s hs _ h
      revert this
      cases k <;> simp [AddKind.opener]
  · revert h
    cases a.kind <;> cases k <;> simp [AddKind.opener, AddKind.closer]

def bodyRe : AddKind → Re
  | .adj => SHS
  | .test => .rep true 0 (some 1) SHS
  | .flags => plus ⟨true, [.ch 41], false⟩

def pat (k : AddKind) : Pat := ⟨brk k.opener k.closer (bodyRe k), [], 1⟩

theorem addition_lang {a : Addition} (ha : a.Ok) : Lang (bodyRe a.kind) (Str.join (py",") a.items) := by
  have hch := items_chars ha
  obtain ⟨k, l⟩ := a
  cases k with
  | adj => exact lang_SHS l ha.1 ha.2
  | test =>
    refine lang_opt ?_
    rcases ha.2 with h | h
    · left
      dsimp only at h ⊢
      rw [h]; rfl
    · exact .inr (lang_SHS l ha.1 h)
  | flags =>
    obtain ⟨h1, h2, -⟩ := ha
    dsimp only at h1 h2 hch ⊢
    refine (lang_rep_set _ _ _ _ _).2 ⟨?_, ?_, by simp⟩
    · intro c hc
      have : c ≠ 41 := by
        rcases mem_join hc with h | ⟨s, hs, h⟩
        · obtain rfl : c = 44 := by simpa using h
          decide
        · exact (hch s hs c h).2.2.2.2.2.2
      simp [CSet.has, CItem.has, this]
    · rw [Nat.succ_le_iff, List.length_pos_iff]
      match l, h1, h2 with
      | [s], _, h2 => simpa [Str.join] using h2
      | s :: t :: l, _, _ => simp [Str.join]

theorem addition_split {a : Addition} (ha : a.Ok) : Str.splitC (c!",") (Str.join (py",") a.items) = a.items :=
  splitC_join (c!",") a.items ha.1 fun s hs h => (items_chars ha s hs _ h).1 rfl

/-- The value for a kind of addition. -/
def itemsOf (E : List Addition) (k : AddKind) : PyVal :=
  match E.find? fun a => a.kind = k with
  | some a => .list (a.items.map .str)
  | none => .none

theorem part_step {A : Str} {E : List Addition} {k : AddKind} (hA : k.opener ∉ A) (hE : ∀ a ∈ E, a.Ok) (hn : (E.map Addition.kind).Nodup) (d : Dict Key PyVal) (label : Str) :
    pspotPart d (A ++ E.flatMap Addition.text) label k.opener (pat k) =
      .ok (d.set (.str label) (itemsOf E k), A ++ (E.filter fun a => a.kind ≠ k).flatMap Addition.text) := by
  by_cases hk : ∃ a ∈ E, a.kind = k
  · obtain ⟨a, ha, rfl⟩ := hk
    obtain ⟨E1, E2, rfl⟩ := List.append_of_mem ha
    have hne : (∀ x ∈ E1, x.kind ≠ a.kind) ∧ ∀ x ∈ E2, x.kind ≠ a.kind := by
      simp only [List.map_append, List.map_cons, List.nodup_append, List.nodup_cons] at hn
      refine ⟨fun x hx h => ?_, fun x hx h => ?_⟩
      · exact hn.2.2 x.kind (List.mem_map_of_mem hx) a.kind (by simp) h
      · exact hn.2.1.1 (h ▸ List.mem_map_of_mem hx)
    have hA1 : a.kind.opener ∉ A ++ E1.flatMap Addition.text := by
      rw [List.mem_append, not_or]
      refine ⟨hA, fun h => ?_⟩
      obtain ⟨x, hx, h⟩ := List.mem_flatMap.1 h
      exact addition_chars (hE x (by simp [hx])) (hne.1 x hx) h
    have e : A ++ (E1 ++ a :: E2).flatMap Addition.text = (A ++ E1.flatMap Addition.text) ++ a.kind.opener :: (Str.join (py",") a.items ++ a.kind.closer :: E2.flatMap Addition.text) := by
      simp [Addition.text]
    have haok := hE a (by simp)
    obtain ⟨wh, hs⟩ := brk_search (a := a.kind.opener) (b := a.kind.closer) (r := bodyRe a.kind) (by cases a.kind <;> decide) (by cases a.kind <;> decide)
      (B := E2.flatMap Addition.text) hA1 (addition_lang haok)
    have hfind : (E1 ++ a :: E2).find? (fun x => decide (x.kind = a.kind)) = some a := by
      rw [List.find?_append, List.find?_eq_none.2 (fun x hx => by simpa using hne.1 x hx)]
      simp
    have hfil : (E1 ++ a :: E2).filter (fun x => decide (x.kind ≠ a.kind)) = E1 ++ E2 := by
      rw [List.filter_append, List.filter_cons_of_neg (by simp), List.filter_eq_self.2 (fun x hx => by simpa using hne.1 x hx),
        List.filter_eq_self.2 (fun x hx => by simpa using hne.2 x hx)]
    rw [pspotPart, if_pos (by rw [e]; simp), e, pat, hs, itemsOf, hfind, hfil]
    simp [Match.group, addition_split haok]
  · have hk' : ∀ a ∈ E, a.kind ≠ k := fun a ha h => hk ⟨a, ha, h⟩
    have hfil : E.filter (fun x => decide (x.kind ≠ k)) = E := List.filter_eq_self.2 (fun x hx => by simpa using hk' x hx)
    rw [pspotPart, if_neg, itemsOf, List.find?_eq_none.2 (fun x hx => by simpa using hk' x hx), hfil]
    intro h
    rcases List.mem_append.1 h with h | h
    · exact hA h
    · obtain ⟨x, hx, h⟩ := List.mem_flatMap.1 h
      exact addition_chars (hE x hx) (hk' x hx) h

theorem find_filter {E : List Addition} {j k : AddKind} (h : j ≠ k) : itemsOf (E.filter fun a => a.kind ≠ k) j = itemsOf E j := by
  have : (E.filter fun a => a.kind ≠ k).find? (fun a => decide (a.kind = j)) = E.find? fun a => decide (a.kind = j) := by
    rw [List.find?_filter]
    congr 1
    funext a
    by_cases ha : a.kind = j
    · simp [ha, h]
    · simp [ha]
  rw [itemsOf, this, itemsOf]

theorem entry_eq {p : PspotDef} (hp : p.Ok) (label : Str) (k : AddKind) :
    p.entry label k = match p.additions.find? (fun a => a.kind = k) with | some a => [(.str label, .list (a.items.map .str))] | none => [] := by
  have hn := hp.2.2.2.2.2.2.2.2
  rw [PspotDef.entry]
  generalize p.additions = E at hn
  induction E with
  | nil => rfl
  | cons a E ih =>
    rw [List.map_cons, List.nodup_cons] at hn
    by_cases ha : a.kind = k
    · have hE : E.filter (fun x => decide (x.kind = k)) = [] := by
        rw [List.filter_eq_nil_iff]
        intro x hx h
        simp only [decide_eq_true_eq] at h
        exact hn.1 (by rw [ha, ← h]; exact List.mem_map_of_mem hx)
      rw [List.filter_cons_of_pos (by simpa using ha), hE, List.find?_cons_of_pos (by simpa using ha)]
      rfl
    · rw [List.filter_cons_of_neg (by simpa using ha), List.find?_cons_of_neg (by simpa using ha)]
      exact ih hn.2

/-! ### The result -/

theorem text_eq (p : PspotDef) : p.text = p.mark false ++ (p.channel.text ++ (p.mark true ++ body p (p.betaText ++ p.additions.flatMap Addition.text))) := by
  simp [PspotDef.text, body]

theorem body_append (p : PspotDef) (a b : Str) : body p (a ++ b) = body p a ++ b := by simp [body]

theorem channel_chars {p : PspotDef} (hp : p.Ok) : 124 ∉ p.channel.text ∧ 45 ∉ p.channel.text := by
  obtain ⟨-, hd⟩ := channel_digits hp.1.1 hp.1.2
  refine ⟨fun h => ?_, fun h => ?_⟩
  · exact absurd (hd _ h) (by decide)
  · exact absurd (hd _ h) (by decide)

theorem drop_text {p : PspotDef} (hp : p.Ok) : dropPolyfit p.text = (p.channel.text ++ body p p.betaText) ++ p.additions.flatMap Addition.text := by
  obtain ⟨h1, h2⟩ := channel_chars hp
  rw [text_eq, List.append_assoc, ← body_append]
  unfold body
  cases hm : p.poly with
  | none =>
    have e1 : p.mark false = [] := by simp [PspotDef.mark, hm]
    have e2 : p.mark true = [] := by simp [PspotDef.mark, hm]
    rw [e1, e2]
    exact dropPolyfit_none h1 h2
  | some side =>
    cases side with
    | false =>
      have e1 : p.mark false = [45] := by simp [PspotDef.mark, hm]
      have e2 : p.mark true = [] := by simp [PspotDef.mark, hm]
      rw [e1, e2]
      exact dropPolyfit_some (a := []) (by simp) (by simp) h1 h2
    | true =>
      have e1 : p.mark false = [] := by simp [PspotDef.mark, hm]
      have e2 : p.mark true = [45] := by simp [PspotDef.mark, hm]
      rw [e1, e2]
      exact dropPolyfit_some (b := []) h1 h2 (by simp) (by simp)

theorem upto_cons {a R : Str} (ha : 124 ∉ a) : Str.uptoFind 124 (a ++ 124 :: R) = a := by
  rw [Str.uptoFind, if_pos (by simp), List.takeWhile_append_of_pos]
  · simp
  · intro c hc
    have : c ≠ 124 := by rintro rfl; exact ha hc
    simpa using this

theorem polyfit_text {p : PspotDef} (hp : p.Ok) : decide (45 ∈ Str.uptoFind 124 p.text) = p.poly.isSome := by
  obtain ⟨h1, h2⟩ := channel_chars hp
  have e : p.text = (p.mark false ++ (p.channel.text ++ p.mark true)) ++ body p (p.betaText ++ p.additions.flatMap Addition.text) := by rw [text_eq]; simp
  rw [e, body, upto_cons]
  · cases hm : p.poly with
    | none => simp [PspotDef.mark, hm, h2]
    | some side => cases side <;> simp [PspotDef.mark, hm]
  · cases hm : p.poly with
    | none => simp [PspotDef.mark, hm, h1]
    | some side => cases side <;> simp [PspotDef.mark, hm, h1]

theorem print_text {p : PspotDef} (hp : p.Ok) : decide (91 ∈ p.text) = decide (AddKind.test ∈ p.additions.map Addition.kind) := by
  rw [decide_eq_decide]
  have e : p.text = (p.mark false ++ (p.channel.text ++ p.mark true)) ++ (body p p.betaText ++ p.additions.flatMap Addition.text) := by rw [text_eq, body_append]; simp
  have hf := front_chars hp
  constructor
  · intro h
    by_contra hk
    rw [e] at h
    rcases List.mem_append.1 h with h | h
    · rcases List.mem_append.1 h with h | h
      · revert h
        unfold PspotDef.mark
        split <;> simp
      · rcases List.mem_append.1 h with h | h
        · exact (hf 91 (List.mem_append_left _ h)).2.1 rfl
        · revert h
          unfold PspotDef.mark
          split <;> simp
    · rcases List.mem_append.1 h with h | h
      · exact (hf 91 (List.mem_append_right _ h)).2.1 rfl
      · obtain ⟨a, ha, h⟩ := List.mem_flatMap.1 h
        refine addition_chars (k := .test) (hp.2.2.2.2.2.2.2.1 a ha) (fun hh => hk ?_) h
        rw [← hh]
        exact List.mem_map_of_mem ha
  · intro h
    obtain ⟨a, ha, hh⟩ := List.mem_map.1 h
    rw [e]
    refine List.mem_append_right _ (List.mem_append_right _ (List.mem_flatMap.2 ⟨a, ha, ?_⟩))
    rw [Addition.text, hh]
    simp [AddKind.opener]

theorem filter_kinds (E : List Addition) : ((E.filter fun a => a.kind ≠ .adj).filter fun a => a.kind ≠ .test).filter (fun a => a.kind ≠ .flags) = [] := by
  rw [List.filter_filter, List.filter_filter, List.filter_eq_nil_iff]
  intro a _
  cases h : a.kind <;> simp

theorem mapM_betas {rd : Numeral → F64} (hrd : ∀ n : Numeral, n.Valid → n.InRange → parse_float_or_rational n.text = .ok (rd n)) : ∀ (bs : List BetaFn), (∀ b ∈ bs, b.Ok Proj.PLUS) →
    mapM' (fun s => parse_beta_function s false) (bs.map BetaFn.text) = .ok (bs.map (BetaFn.value rd))
  | [], _ => rfl
  | b :: bs, h => by
    rw [List.map_cons, mapM', beta_ok hrd (fun u hu => List.mem_append_left _ hu) (h b (by simp)), mapM_betas hrd bs fun b hb => h b (by simp [hb])]
    rfl

theorem groups_info (p : PspotDef) (w tail : Str) : groupVals ⟨[], w, tail, infoCaps p, NAMES, 8⟩ =
    [(.str (py"local_energy"), .none), (.str (py"local_channel"), .str p.channel.text), (.str (py"core_radius"), .str p.core.text),
    (.str (py"beta_radius"), optStr (p.radii.map fun q => q.1.text)), (.str (py"r_inner"), optStr (p.radii.map fun q => q.2.text)),
    (.str (py"coarse"), .str p.coarse.text), (.str (py"medium"), .str p.medium.text), (.str (py"fine"), .str p.fine.text)] := by
  rw [groupVals, Match.groupdict]
  simp only [Match.group, infoCaps]
  cases p.radii <;> rfl

/-- The numbers before conversions. -/
def numbers (p : PspotDef) : Dict Key PyVal :=
  [(.str (py"local_energy"), .none), (.str (py"local_channel"), .str p.channel.text), (.str (py"core_radius"), .str p.core.text),
    (.str (py"beta_radius"), optStr (p.radii.map fun q => q.1.text)), (.str (py"r_inner"), optStr (p.radii.map fun q => q.2.text)),
    (.str (py"coarse"), .str p.coarse.text), (.str (py"medium"), .str p.medium.text), (.str (py"fine"), .str p.fine.text),
    (.str (py"beta_function_string"), .str p.betaText)]

/-- What stands before the numbers. -/
def front (pr pf : Bool) (bf : List PyVal) (st : Str) : Dict Key PyVal :=
  [(.str (py"print"), .bool pr), (.str (py"poly_fit"), .bool pf), (.str (py"beta_functions"), .list bf), (.str (py"string"), .str st)]

theorem gathered_set (pr pf : Bool) (bf bf' : List PyVal) (st : Str) (a t f : PyVal) (p : PspotDef) (w tail : Str) :
    Dict.set (Dict.set ((groupVals ⟨[], w, tail, infoCaps p, NAMES, 8⟩).foldl (fun (d : Dict Key PyVal) kv => d.set kv.1 kv.2)
      (Dict.set (Dict.set (Dict.set (front pr pf bf st) (.str (py"adjustment")) a) (.str (py"testing")) t) (.str (py"flags")) f))
      (.str (py"beta_function_string")) (.str p.betaText)) (.str (py"beta_functions")) (.list bf')
      = front pr pf bf' st ++ ([(.str (py"adjustment"), a)] ++ ([(.str (py"testing"), t)] ++ ([(.str (py"flags"), f)] ++ numbers p))) := by
  rw [groups_info]
  rfl

theorem fix_step {d : Dict Key PyVal} {key : Key} {typ : Ty} {v v' : PyVal} {rest : List (Key × Ty)} (h : Dict.get? d key = some v) (ht : to_type typ v = .ok v') :
    fix_data_types d ((key, typ) :: rest) = fix_data_types (d.set key v') rest := by
  rw [fix_data_types, h]
  dsimp only
  rw [ht]
  rfl

theorem fix_skip {d : Dict Key PyVal} {key : Key} {typ : Ty} {rest : List (Key × Ty)} (h : Dict.get? d key = Option.none) :
    fix_data_types d ((key, typ) :: rest) = fix_data_types d rest := by
  rw [fix_data_types, h]

theorem fix_prefix {pre : Dict Key PyVal} : ∀ {tys : List (Key × Ty)} {d d' : Dict Key PyVal}, (∀ kt ∈ tys, ∀ kv ∈ pre, kv.1 ≠ kt.1) → fix_data_types d tys = .ok d' →
    fix_data_types (pre ++ d) tys = .ok (pre ++ d') := by
  have hg : ∀ (pre d : Dict Key PyVal) (key : Key), (∀ kv ∈ pre, kv.1 ≠ key) → Dict.get? (pre ++ d : List (Key × PyVal)) key = Dict.get? d key := by
    intro pre d key h
    induction pre with
    | nil => rfl
    | cons kv pre ih =>
      obtain ⟨k, v⟩ := kv
      rw [List.cons_append, Dict.get?, if_neg (h (k, v) (by simp))]
      exact ih fun kv hkv => h kv (by simp [hkv])
  have hs : ∀ (pre d : Dict Key PyVal) (key : Key) (v : PyVal), (∀ kv ∈ pre, kv.1 ≠ key) → Dict.set (pre ++ d : List (Key × PyVal)) key v = pre ++ Dict.set d key v := by
    intro pre d key v h
    induction pre with
    | nil => rfl
    | cons kv pre ih =>
      obtain ⟨k, v'⟩ := kv
      rw [List.cons_append, Dict.set, if_neg (h (k, v') (by simp)), ih fun kv hkv => h kv (by simp [hkv])]
      rfl
  intro tys
  induction tys with
  | nil =>
    intro d d' _ h
    cases h
    rfl
  | cons kt tys ih =>
    obtain ⟨key, typ⟩ := kt
    intro d d' hk h
    have hk1 := hk (key, typ) (by simp)
    have hk2 : ∀ kt ∈ tys, ∀ kv ∈ pre, kv.1 ≠ kt.1 := fun kt hkt => hk kt (by simp [hkt])
    rw [fix_data_types] at h ⊢
    rw [hg pre d key hk1]
    cases hd : Dict.get? d key with
    | none =>
      rw [hd] at h
      exact ih hk2 h
    | some v =>
      rw [hd] at h
      dsimp only at h ⊢
      cases hv : to_type typ v with
      | error e => rw [hv] at h; cases h
      | ok v' =>
        rw [hv] at h
        simp only [Castep.Delta.ok_bind] at h ⊢
        rw [hs pre d key v' hk1]
        exact ih hk2 h

abbrev OPTIONAL : List Key :=
  [.str (py"local_energy"), .str (py"beta_radius"), .str (py"r_inner"), .str (py"adjustment"), .str (py"testing"), .str (py"flags")]

theorem numbers_fix {rd : Numeral → F64} (hrd : ∀ n : Numeral, n.Valid → n.InRange → parse_float_or_rational n.text = .ok (rd n)) {p : PspotDef} (hp : p.Ok) :
    fix_data_types (strip_nones (numbers p) (some OPTIONAL)) pspotTypes =
      .ok ([(.str (py"local_channel"), .float (rd p.channel)), (.str (py"core_radius"), .float (rd p.core))] ++
        ((p.radii.toList.flatMap fun q => [(.str (py"beta_radius"), .float (rd q.1)), (.str (py"r_inner"), .float (rd q.2))]) ++
        [(.str (py"coarse"), .float (rd p.coarse)), (.str (py"medium"), .float (rd p.medium)), (.str (py"fine"), .float (rd p.fine)),
          (.str (py"beta_function_string"), .str p.betaText)])) := by
  have t' : ∀ {n : Numeral}, n.Valid → n.InRange → to_type .float (.str n.text) = .ok (.float (rd n)) := fun h1 h2 => LineTab.toFloat (hrd _ h1 h2)
  obtain ⟨a1, a2, a3, a4, a5, a6, -⟩ := hp
  have e1 := t' a1.1.1 a1.1.2.1
  have e2 := t' a2.1 a2.2
  have e4 := t' a4.1 a4.2
  have e5 := t' a5.1 a5.2
  have e6 := t' a6.1 a6.2
  unfold numbers pspotTypes
  cases hr : p.radii with
  | none => simp [optStr, strip_nones, fix_data_types, Dict.get?, Dict.set, e1, e2, e4, e5, e6]; rfl
  | some q =>
    have e3 := a3 q hr
    have e7 := t' e3.1.1 e3.1.2
    have e8 := t' e3.2.1 e3.2.2
    simp [optStr, strip_nones, fix_data_types, Dict.get?, Dict.set, e1, e2, e4, e5, e6, e7, e8]; rfl

theorem strip_append (a b : Dict Key PyVal) : strip_nones (a ++ b : List (Key × PyVal)) (some OPTIONAL) = strip_nones a (some OPTIONAL) ++ strip_nones b (some OPTIONAL) :=
  List.filter_append ..

theorem strip_front (pr pf : Bool) (bf : List PyVal) (st : Str) : strip_nones (front pr pf bf st) (some OPTIONAL) = front pr pf bf st := rfl

theorem strip_item {label : Str} (hl : Key.str label ∈ OPTIONAL) (E : List Addition) (k : AddKind) : strip_nones [(.str label, itemsOf E k)] (some OPTIONAL) =
    match E.find? (fun a => a.kind = k) with | some a => [(.str label, .list (a.items.map .str))] | none => [] := by
  rw [itemsOf]
  have hl' : OPTIONAL.contains (Key.str label) = true := by simpa using hl
  cases E.find? (fun a => decide (a.kind = k)) with
  | none => simp only [strip_nones, List.filter_cons, hl']; rfl
  | some a => simp only [strip_nones, List.filter_cons, hl']; rfl

theorem not_item {label : Str} {kt : Key × Ty} {E : List Addition} {k : AddKind} (h : kt.1 ≠ Key.str label) : ∀ kv ∈ strip_nones [(Key.str label, itemsOf E k)] (some OPTIONAL), kv.1 ≠ kt.1 := by
  intro kv hkv
  have := (List.mem_filter.1 hkv).1
  obtain rfl : kv = (Key.str label, itemsOf E k) := by simpa using this
  exact fun e => h e.symm

theorem pspot_ok {rd : Numeral → F64} (hrd : ∀ n : Numeral, n.Valid → n.InRange → parse_float_or_rational n.text = .ok (rd n)) {p : PspotDef} (hp : p.Ok) :
    parse_pspot_string p.text = .ok (p.value rd) := by
  have hf := front_chars hp
  have hE := hp.2.2.2.2.2.2.2.1
  have hn := hp.2.2.2.2.2.2.2.2
  have hb := hp.2.2.2.2.2.2.1
  have hbar : 124 ∉ p.betaText := fun h => (betaText_chars hp _ h).1 rfl
  obtain ⟨w, hi⟩ := info_match hp hbar
  have s1 := fun (d : Dict Key PyVal) => part_step (k := .adj) (fun h => (hf _ h).1 rfl) hE hn d (py"adjustment")
  have s2 := fun (d : Dict Key PyVal) => part_step (k := .test) (fun h => (hf _ h).2.1 rfl) (E := p.additions.filter fun a => a.kind ≠ .adj) (fun a ha => hE a (List.mem_filter.1 ha).1)
    (hn.sublist (List.filter_sublist.map _)) d (py"testing")
  have s3 := fun (d : Dict Key PyVal) => part_step (k := .flags) (fun h => (hf _ h).2.2 rfl) (E := (p.additions.filter fun a => a.kind ≠ .adj).filter fun a => a.kind ≠ .test)
    (fun a ha => hE a (List.mem_filter.1 (List.mem_filter.1 ha).1).1) (hn.sublist ((List.filter_sublist.trans List.filter_sublist).map _)) d (py"flags")
  rw [find_filter (by decide)] at s2
  rw [find_filter (by decide), find_filter (by decide), filter_kinds, List.flatMap_nil, List.append_nil] at s3
  unfold parse_pspot_string
  dsimp only
  rw [drop_text hp, polyfit_text hp, print_text hp, ADJ_eq, TEST_eq, FLAG_eq]
  have s1' := s1 (front (decide (AddKind.test ∈ p.additions.map Addition.kind)) p.poly.isSome [] p.text)
  unfold front pat at s1'
  simp only [AddKind.opener, AddKind.closer, bodyRe] at s1'
  rw [s1']
  simp only [Castep.Delta.ok_bind]
  unfold pat at s2
  simp only [AddKind.opener, AddKind.closer, bodyRe] at s2
  rw [s2]
  simp only [Castep.Delta.ok_bind]
  unfold pat at s3
  simp only [AddKind.opener, AddKind.closer, bodyRe] at s3
  rw [s3]
  simp only [Castep.Delta.ok_bind]
  rw [hi]
  dsimp only
  rw [List.nil_append, PspotDef.betaText, splitC_join (c!":") (p.betas.map BetaFn.text) (by simpa using hb.1) (by
    intro s hs h
    obtain ⟨b, hb', rfl⟩ := List.mem_map.1 hs
    exact (beta_plain (hb.2 b hb') _ h).2.2.2.2 rfl), mapM_betas hrd p.betas hb.2]
  simp only [Castep.Delta.ok_bind]
  rw [if_neg Bool.false_ne_true]
  have hg := gathered_set (decide (AddKind.test ∈ p.additions.map Addition.kind)) p.poly.isSome [] (p.betas.map (BetaFn.value rd)) p.text
    (itemsOf p.additions .adj) (itemsOf p.additions .test) (itemsOf p.additions .flags) p w p.betaText
  unfold front PspotDef.betaText at hg
  rw [hg, strip_append, strip_append, strip_append, strip_append]
  have hty : ∀ l : Str, Key.str l ∉ pspotTypes.map Prod.fst → ∀ kt ∈ pspotTypes, kt.1 ≠ Key.str l := fun l hl kt hkt e => hl (e ▸ List.mem_map_of_mem hkt)
  have hnum := numbers_fix hrd hp
  have h3 := fix_prefix (pre := strip_nones [(Key.str (py"flags"), itemsOf p.additions .flags)] (some OPTIONAL)) (fun kt hkt => not_item (hty _ (by decide) kt hkt)) hnum
  have h2 := fix_prefix (pre := strip_nones [(Key.str (py"testing"), itemsOf p.additions .test)] (some OPTIONAL)) (fun kt hkt => not_item (hty _ (by decide) kt hkt)) h3
  have h1 := fix_prefix (pre := strip_nones [(Key.str (py"adjustment"), itemsOf p.additions .adj)] (some OPTIONAL)) (fun kt hkt => not_item (hty _ (by decide) kt hkt)) h2
  have h0 := fix_prefix (pre := strip_nones (front (decide (AddKind.test ∈ p.additions.map Addition.kind)) p.poly.isSome (p.betas.map (BetaFn.value rd)) p.text) (some OPTIONAL)) (by
    intro kt hkt kv hkv e
    rw [strip_front] at hkv
    have : ∀ k ∈ [Key.str (py"print"), Key.str (py"poly_fit"), Key.str (py"beta_functions"), Key.str (py"string")], ∀ kt ∈ pspotTypes, kt.1 ≠ k := by decide
    refine this kv.1 ?_ kt hkt e.symm
    have := List.mem_map_of_mem (f := Prod.fst) hkv
    exact this) h1
  unfold front at h0
  refine (congrArg (fun x => x >>= fun d => (.ok (.dict d) : PyM PyVal)) h0).trans ?_
  simp only [Castep.Delta.ok_bind]
  rw [PspotDef.value, entry_eq hp, entry_eq hp, entry_eq hp, strip_item (by decide), strip_item (by decide), strip_item (by decide)]
  rfl

/-! ### Local energies -/

theorem unsigned_chars {n : Numeral} (hn : n.Unsigned) : ∀ c ∈ n.text, (48 ≤ c ∧ c ≤ 57) ∨ c = 46 := by
  obtain ⟨⟨h1, h2, h3, -⟩, -, h4, h5⟩ := hn
  obtain ⟨sg, ip, fr, ex⟩ := n
  dsimp only at h1 h2 h3 h4 h5
  subst h4 h5
  intro c hc
  simp only [Numeral.text, Numeral.signText, Numeral.expText, List.mem_append, List.append_nil, List.nil_append] at hc
  rcases hc with hc | hc
  · exact .inl (h1 c hc)
  · cases fr with
    | none => cases hc
    | some f =>
      simp only [Numeral.fracText, List.mem_cons] at hc
      rcases hc with rfl | hc
      · exact .inr rfl
      · exact .inl (h2 c hc)

theorem unsigned_ne {n : Numeral} (hn : n.Valid) : n.text ≠ [] := by
  obtain ⟨-, -, h3, -⟩ := hn
  intro h
  simp only [Numeral.text, List.append_eq_nil_iff] at h
  apply h3
  obtain ⟨sg, ip, fr, ex⟩ := n
  simp only [List.append_eq_nil_iff] at h ⊢
  cases fr with
  | none => exact ⟨by tauto, rfl⟩
  | some f => simp [Numeral.fracText] at h

set_option linter.constructorNameAsVariable false in
/-- No definition starts with a number and `=`. -/
theorem info_energy {n : Numeral} (hn : n.Unsigned) (s : Str) : Res.PSPOT_INFO_RE.match_ (n.text ++ 61 :: s) = Option.none := by
  cases hm : Res.PSPOT_INFO_RE.match_ (n.text ++ 61 :: s) with
  | none => rfl
  | some x =>
    exfalso
    obtain ⟨b, e, hl⟩ := match_found hm
    rw [INFO_eq] at hl
    generalize x.whole = wh at e hl
    clear hm
    have hch := unsigned_chars hn
    obtain ⟨d, ds, ed⟩ := List.exists_cons_of_ne_nil (unsigned_ne hn.1)
    have hd := hch d (by rw [ed]; simp)
    obtain ⟨u0, v0, e0, rfl, u1, v1, rfl, hu1, u2, v2, rfl, hu2, u3, v3, rfl, hu3, u4, v4, rfl, hu4, u5, v5, rfl, hu5, u6, v6, rfl, ⟨c6, hc6, rfl⟩, -⟩ := hl
    rw [e0] at e
    obtain ⟨hu1, -⟩ := (lang_rep_set _ _ _ _ _).1 hu1
    obtain ⟨hu3, -⟩ := (lang_rep_set _ _ _ _ _).1 hu3
    obtain ⟨hu4, hu4', -⟩ := (lang_rep_set true _ _ _ _).1 hu4
    obtain ⟨hu5, -⟩ := (lang_rep_set _ _ _ _ _).1 hu5
    have hmin : ∀ u : Str, (∀ c ∈ u, (ch 45).has c = true) → ∀ c ∈ u, c = 45 := fun u h c hc => by
      have := h c hc
      rw [has_ch] at this
      simpa using this
    have h45 := hmin u1 hu1
    -- nothing before the channel
    obtain rfl : u1 = [] := by
      cases u1 with
      | nil => rfl
      | cons c u1 =>
        rw [ed] at e
        simp only [List.nil_append, List.cons_append, List.append_assoc] at e
        injection e with e1
        have := h45 c (by simp)
        omega
    obtain rfl : u2 = [] := by
      obtain ⟨ws, rfl, -, -, hw⟩ := hu2
      cases ws with
      | nil => rfl
      | cons w ws =>
        exfalso
        obtain ⟨p, q, rfl, hp, -⟩ := hw w (by simp)
        obtain ⟨hp1, hp2, -⟩ := (lang_rep_set _ _ _ _ _).1 hp
        cases p with
        | nil => simp at hp2
        | cons c p =>
          rw [ed] at e
          simp only [List.nil_append, List.cons_append, List.append_assoc, List.flatten_cons] at e
          injection e with e1
          have := hp1 c (by simp)
          rw [has_sp] at this
          subst e1
          have hnd : isDigit d = true ∨ d = 46 := by
            rcases hd with h | h
            · exact .inl ((isDigit_iff d).2 h)
            · exact .inr h
          rcases hnd with h | rfl
          · rw [isDigit_not_space h] at this; cases this
          · revert this; decide
    -- the bar is reached before the equals sign
    obtain rfl : c6 = 124 := by
      rw [has_ch] at hc6
      simpa using hc6
    have hno : 61 ∉ u3 ++ (u4 ++ u5) := by
      intro h
      simp only [List.mem_append] at h
      rcases h with h | h | h
      · exact absurd (hmin u3 hu3 _ h) (by decide)
      · exact absurd (hu4 _ h) (by decide)
      · exact absurd (hmin u5 hu5 _ h) (by decide)
    have hnb : 124 ∉ n.text := text_no_bar hn.1
    simp only [List.nil_append, List.append_assoc, List.cons_append] at e
    have hsplit : (u3 ++ (u4 ++ u5)) ++ 124 :: (v6 ++ b) = n.text ++ 61 :: s := by rw [e]; simp
    rcases List.append_eq_append_iff.1 hsplit with ⟨y, h1, h2⟩ | ⟨y, h1, h2⟩
    · cases y with
      | nil => simp at h2
      | cons c y =>
        simp only [List.cons_append] at h2
        injection h2 with h3
        exact hnb (by rw [h1, ← h3]; simp)
    · cases y with
      | nil => simp at h2
      | cons c y =>
        simp only [List.cons_append] at h2
        injection h2 with h3
        exact hno (by rw [h1, ← h3]; simp)

theorem energy_error {n : Numeral} (hn : n.Unsigned) {p : PspotDef} (hp : p.Ok) (hpoly : p.poly = Option.none) :
    parse_pspot_string (n.text ++ 61 :: p.text) = .error .valueError := by
  have hf := front_chars hp
  have hE := hp.2.2.2.2.2.2.2.1
  have hn' := hp.2.2.2.2.2.2.2.2
  obtain ⟨h1, h2⟩ := channel_chars hp
  have hch := unsigned_chars hn
  have e1 : p.text = (p.channel.text ++ body p p.betaText) ++ p.additions.flatMap Addition.text := by
    rw [text_eq, body_append]
    simp [PspotDef.mark, hpoly]
  have e0 : n.text ++ 61 :: p.text = (n.text ++ 61 :: (p.channel.text ++ body p p.betaText)) ++ p.additions.flatMap Addition.text := by rw [e1]; simp
  have hfr : ∀ c ∈ n.text ++ 61 :: (p.channel.text ++ body p p.betaText), c ≠ 123 ∧ c ≠ 91 ∧ c ≠ 40 := by
    intro c hc
    rcases List.mem_append.1 hc with h | h
    · have := hch c h
      omega
    · rcases List.mem_cons.1 h with rfl | h
      · decide
      · exact hf c h
  have hdrop : dropPolyfit (n.text ++ 61 :: p.text) = n.text ++ 61 :: p.text := by
    have e2 : n.text ++ 61 :: p.text = (n.text ++ 61 :: p.channel.text) ++ 124 :: ((body p (p.betaText ++ p.additions.flatMap Addition.text)).drop 1) := by
      rw [text_eq]
      simp [PspotDef.mark, hpoly, body]
    rw [e2]
    refine dropPolyfit_none ?_ ?_
    · intro h
      rcases List.mem_append.1 h with h | h
      · have := hch _ h; omega
      · rcases List.mem_cons.1 h with h | h
        · cases h
        · exact h1 h
    · intro h
      rcases List.mem_append.1 h with h | h
      · have := hch _ h; omega
      · rcases List.mem_cons.1 h with h | h
        · cases h
        · exact h2 h
  have s1 := fun (d : Dict Key PyVal) => part_step (k := .adj) (fun h => (hfr _ h).1 rfl) hE hn' d (py"adjustment")
  have s2 := fun (d : Dict Key PyVal) => part_step (k := .test) (fun h => (hfr _ h).2.1 rfl) (E := p.additions.filter fun a => a.kind ≠ .adj) (fun a ha => hE a (List.mem_filter.1 ha).1)
    (hn'.sublist (List.filter_sublist.map _)) d (py"testing")
  have s3 := fun (d : Dict Key PyVal) => part_step (k := .flags) (fun h => (hfr _ h).2.2 rfl) (E := (p.additions.filter fun a => a.kind ≠ .adj).filter fun a => a.kind ≠ .test)
    (fun a ha => hE a (List.mem_filter.1 (List.mem_filter.1 ha).1).1) (hn'.sublist ((List.filter_sublist.trans List.filter_sublist).map _)) d (py"flags")
  rw [filter_kinds, List.flatMap_nil, List.append_nil] at s3
  unfold parse_pspot_string
  dsimp only
  rw [hdrop, ADJ_eq, TEST_eq, FLAG_eq]
  unfold pat at s1 s2 s3
  simp only [AddKind.opener, AddKind.closer, bodyRe] at s1 s2 s3
  rw [← e0] at s1
  rw [s1]
  simp only [Castep.Delta.ok_bind]
  rw [s2]
  simp only [Castep.Delta.ok_bind]
  rw [s3]
  simp only [Castep.Delta.ok_bind]
  rw [info_energy hn]

end Verif.Cell.Pspot

import Verif.Model.Utility
import Verif.Spec.Data
import Verif.Lemmas.Dict
import Verif.Lemmas.NatStr
import Verif.Lemmas.Strings
/-
json_safe, normalise, flatten_dict, stack_dict, add_aliases.
-/
namespace Verif
open Spec

/-! ### json_safe on safe data -/

theorem json_key_plain {k : Key} (h : ∀ l, k ≠ .tup l) : json_key k = .ok k := by
  cases k with
  | tup l => exact absurd rfl (h l)
  | _ => rfl

theorem json_key_result {k k' : Key} (h : json_key k = .ok k') : ∀ l, k' ≠ .tup l := by
  intro l e
  subst e
  unfold json_key at h
  split at h
  · cases h
  · rename_i a l
    cases hn : Key.nestedTexts (.tup a :: l) with
    | error e => rw [hn] at h; cases h
    | ok t => rw [hn] at h; cases h
  · cases h
  · rename_i h1 h2 h3; cases h; exact h3 _ rfl

mutual
theorem json_safe_id : ∀ (v : PyVal), JsonReady v → json_safe v = .ok v
  | .dict d, h => by
    rw [json_safe, jsonDict_id d [] h.2 (by simpa using h.1)]
    rfl
  | .complex _ _, h => h.elim
  | .none, _ | .bool _, _ | .int _, _ | .float _, _ | .str _, _ | .tuple _, _ => by rw [json_safe] <;> simp
  | .list _, h => h.elim
theorem jsonDict_id : ∀ (d out : List (Key × PyVal)), JsonReadyD d →
    (out.map Prod.fst ++ d.map Prod.fst).Nodup → jsonDict d out = .ok (out ++ d)
  | [], out, _, _ => by simp [jsonDict]
  | (k, v) :: d, out, h, hn => by
    obtain ⟨h1, h2, h3⟩ := h
    rw [jsonDict, json_key_plain h1, json_safe_id v h2]
    have hk : k ∉ Dict.keys out := by
      rw [List.nodup_append] at hn
      intro hm
      exact hn.2.2 k hm k (by simp) rfl
    show jsonDict d (Dict.set out k v) = _
    rw [Dict.set_eq_append _ _ _ hk, jsonDict_id d _ h3 (by simpa using hn)]
    simp
end

/-- The loop on safe values: keys converted one by one. -/
theorem jsonDict_ready : ∀ (d out : List (Key × PyVal)), (∀ kv ∈ d, JsonReady kv.2) →
    jsonDict d out = (d.mapM fun kv => json_key kv.1).map fun ks =>
      (ks.zip (d.map Prod.snd)).foldl (fun o kv => Dict.set o kv.1 kv.2) out
  | [], out, _ => rfl
  | (k, v) :: d, out, h => by
    rw [jsonDict, json_safe_id v (h (k, v) (by simp)), List.mapM_cons]
    cases json_key k with
    | error e => rfl
    | ok k' =>
      show jsonDict d (Dict.set out k' v) = _
      rw [jsonDict_ready d _ fun kv hkv => h kv (by simp [hkv])]
      cases List.mapM (fun kv => json_key kv.1) d with
      | error e => rfl
      | ok ks => rfl

/-! ### Keys -/

theorem elemTexts_ok {x : Key} (h : (∃ a, x = .tup a) ∨ ∃ s, x = .str s) :
    Key.elemTexts x = .ok (innerTexts x) := by
  rcases h with ⟨a, rfl⟩ | ⟨s, rfl⟩ <;> rfl

theorem elemTexts_err {x : Key} (h : ¬ ((∃ a, x = .tup a) ∨ ∃ s, x = .str s)) :
    Key.elemTexts x = .error .typeError := by
  cases x with
  | tup l => exact absurd (.inl ⟨l, rfl⟩) h
  | str s => exact absurd (.inr ⟨s, rfl⟩) h
  | _ => rfl

theorem nestedTexts_ok : ∀ (l : List Key), (∀ x ∈ l, (∃ a, x = .tup a) ∨ ∃ s, x = .str s) →
    Key.nestedTexts l = .ok (l.flatMap innerTexts)
  | [], _ => rfl
  | x :: l, h => by
    rw [Key.nestedTexts, elemTexts_ok (h x (by simp)), nestedTexts_ok l fun y hy => h y (by simp [hy])]
    rfl

theorem nestedTexts_err : ∀ (l : List Key), ¬ (∀ x ∈ l, (∃ a, x = .tup a) ∨ ∃ s, x = .str s) →
    Key.nestedTexts l = .error .typeError
  | [], h => absurd (by simp) h
  | x :: l, h => by
    rw [Key.nestedTexts]
    by_cases hx : (∃ a, x = .tup a) ∨ ∃ s, x = .str s
    · rw [elemTexts_ok hx, nestedTexts_err l ?_]
      · rfl
      · intro hl
        exact h fun y hy => by
          rcases List.mem_cons.1 hy with rfl | hy
          · exact hx
          · exact hl y hy
    · rw [elemTexts_err hx]; rfl

theorem json_key_ok {k : Key} (h : KeyOk k) : json_key k = .ok (jsonName k) := by
  match k, h with
  | .tup [], h => exact h.elim
  | .tup (.tup a :: l), h =>
    rw [json_key, nestedTexts_ok]
    · rfl
    · intro x hx
      rcases List.mem_cons.1 hx with rfl | hx
      · exact .inl ⟨a, rfl⟩
      · exact h x hx
  | .tup (.none :: l), _ | .tup (.bool _ :: l), _ | .tup (.int _ :: l), _ | .tup (.str _ :: l), _ => rfl
  | .none, _ | .bool _, _ | .int _, _ | .str _, _ => rfl

theorem json_key_err {k : Key} (h : ¬ KeyOk k) :
    json_key k = .error (if k = .tup [] then .indexError else .typeError) := by
  match k, h with
  | .tup [], h => rfl
  | .tup (.tup a :: l), h =>
    rw [json_key, nestedTexts_err]
    · rw [if_neg (by simp)]; rfl
    · intro hx
      exact h fun y hy => hx y (by simp [hy])
  | .tup (.none :: l), h | .tup (.bool _ :: l), h | .tup (.int _ :: l), h | .tup (.str _ :: l), h =>
    exact absurd trivial h
  | .none, h | .bool _, h | .int _, h | .str _, h => exact absurd trivial h

/-! ### normalise with the JSON mapping -/

theorem mapM_keys_ok (d : List (Key × PyVal)) (h : ∀ kv ∈ d, KeyOk kv.1) :
    d.mapM (fun kv => json_key kv.1) = .ok (d.map fun kv => jsonName kv.1) := by
  induction d with
  | nil => rfl
  | cons kv d ih =>
    rw [List.mapM_cons, json_key_ok (h kv (by simp)), ih fun x hx => h x (by simp [hx])]
    rfl

theorem mapM_keys_err (d : List (Key × PyVal)) (h : ¬ ∀ kv ∈ d, KeyOk kv.1) :
    ∃ e, d.mapM (fun kv => json_key kv.1) = .error e := by
  induction d with
  | nil => exact absurd (by simp) h
  | cons kv d ih =>
    rw [List.mapM_cons]
    by_cases hk : KeyOk kv.1
    · rw [json_key_ok hk]
      obtain ⟨e, he⟩ := ih fun hx => h fun y hy => by
        rcases List.mem_cons.1 hy with rfl | hy
        · exact hk
        · exact hx y hy
      exact ⟨e, by rw [he]; rfl⟩
    · rw [json_key_err hk]; exact ⟨_, rfl⟩

theorem readyD_iff (d : List (Key × PyVal)) :
    JsonReadyD d ↔ ∀ kv ∈ d, (∀ l, kv.1 ≠ .tup l) ∧ JsonReady kv.2 := by
  induction d with
  | nil => simp [JsonReadyD]
  | cons kv d ih => simp [JsonReadyD, ih, and_assoc]

theorem mem_scalarsD (d : List (Key × PyVal)) (x : PyVal) :
    x ∈ scalarsD d ↔ ∃ kv ∈ d, x ∈ scalars kv.2 := by
  induction d with
  | nil => simp [scalarsD]
  | cons kv d ih => simp [scalarsD, ih]

theorem scalarsD_values (d : List (Key × PyVal)) : scalarsD d = d.flatMap fun kv => scalars kv.2 := by
  induction d with
  | nil => rfl
  | cons kv d ih => simp [scalarsD, ih]

/-- What setting entries one by one leaves. -/
theorem foldl_set_mem {κ α : Type} [DecidableEq κ] (l : List (κ × α)) (out : Dict κ α) (hout : out.keys.Nodup) :
    (l.foldl (fun o kv => Dict.set o kv.1 kv.2) out).keys.Nodup ∧
    ∀ kv ∈ l.foldl (fun o kv => Dict.set o kv.1 kv.2) out, kv ∈ out ∨ kv ∈ l := by
  induction l generalizing out with
  | nil => exact ⟨hout, fun kv h => .inl h⟩
  | cons p l ih =>
    obtain ⟨h1, h2⟩ := ih (out.set p.1 p.2) (Dict.nodup_set _ _ _ hout)
    refine ⟨h1, fun kv h => ?_⟩
    rcases h2 kv h with h | h
    · by_cases hk : kv.1 = p.1
      · have e1 := Dict.get?_some_of_mem _ (Dict.nodup_set _ _ _ hout) kv.1 kv.2 h
        rw [hk, Dict.get?_set_self] at e1
        right
        have : kv = p := by
          obtain ⟨a, b⟩ := kv
          obtain ⟨c, d⟩ := p
          simp at hk e1
          rw [hk, e1]
        rw [this]; simp
      · have e1 := Dict.get?_some_of_mem _ (Dict.nodup_set _ _ _ hout) kv.1 kv.2 h
        rw [Dict.get?_set_ne _ _ _ _ hk] at e1
        exact .inl (Dict.mem_of_get? _ _ _ e1)
    · exact .inr (by simp [h])

/-- One dictionary whose values are safe already. -/
theorem json_dict_ok (d : List (Key × PyVal)) (w : PyVal) (hd : ∀ kv ∈ d, JsonReady kv.2)
    (h : json_safe (.dict d) = .ok w) :
    (∀ kv ∈ d, KeyOk kv.1) ∧ ∃ o, w = .dict o ∧ JsonReady w ∧
      (∀ kv ∈ o, ∃ kv' ∈ d, kv.1 = jsonName kv'.1 ∧ kv.2 = kv'.2) ∧
      ((d.map fun kv => jsonName kv.1).Nodup → o = d.map fun kv => (jsonName kv.1, kv.2)) := by
  rw [json_safe, jsonDict_ready d [] hd] at h
  by_cases hk : ∀ kv ∈ d, KeyOk kv.1
  · refine ⟨hk, ?_⟩
    rw [mapM_keys_ok d hk] at h
    have hz : (d.map fun kv => jsonName kv.1).zip (d.map Prod.snd) = d.map fun kv => (jsonName kv.1, kv.2) := by
      rw [List.zip_map']
    simp only [Except.map, hz] at h
    have hw : w = .dict ((d.map fun kv => (jsonName kv.1, kv.2)).foldl (fun o kv => Dict.set o kv.1 kv.2) []) := by
      cases h; rfl
    obtain ⟨h1, h2⟩ := foldl_set_mem (d.map fun kv => (jsonName kv.1, kv.2)) [] (by simp [Dict.keys])
    have h3 : ∀ kv ∈ (d.map fun kv => (jsonName kv.1, kv.2)).foldl (fun o kv => Dict.set o kv.1 kv.2) [],
        ∃ kv' ∈ d, kv.1 = jsonName kv'.1 ∧ kv.2 = kv'.2 := by
      intro kv hkv
      rcases h2 kv hkv with h | h
      · cases h
      · obtain ⟨kv', hm, rfl⟩ := List.mem_map.1 h
        exact ⟨kv', hm, rfl, rfl⟩
    refine ⟨_, hw, ?_, h3, ?_⟩
    · rw [hw]
      refine ⟨h1, (readyD_iff _).2 fun kv hkv => ?_⟩
      obtain ⟨kv', hm, e1, e2⟩ := h3 kv hkv
      refine ⟨?_, by rw [e2]; exact hd kv' hm⟩
      rw [e1]
      exact json_key_result (json_key_ok (hk kv' hm))
    · intro hn
      have := Dict.ofList_nodup (d.map fun kv => (jsonName kv.1, kv.2)) (by simpa [Function.comp_def] using hn)
      exact this
  · obtain ⟨e, he⟩ := mapM_keys_err d hk
    rw [he] at h; cases h

mutual
theorem normalise_json : ∀ (v w : PyVal), normalise jsonMapping v = .ok w →
    JsonReady w ∧ (∀ x ∈ scalars w, x ∈ scalars v) ∧ EveryDict (fun ks => ∀ k ∈ ks, KeyOk k) v ∧
      (EveryDict NamesDistinct v → scalars w = scalars v)
  | .none, w, h | .bool _, w, h | .int _, w, h | .float _, w, h | .str _, w, h => by
    cases h; exact ⟨trivial, fun _ hx => hx, trivial, fun _ => rfl⟩
  | .complex re im, w, h => by
    cases h
    refine ⟨⟨by simp, ?_⟩, fun _ hx => by simpa [scalars, scalarsD] using hx, trivial, fun _ => by simp [scalars, scalarsD]⟩
    simp [JsonReadyD, JsonReady]
  | .tuple l, w, h => by
    rw [normalise] at h
    cases hl : normaliseL jsonMapping l with
    | error e => rw [hl] at h; cases h
    | ok l' =>
      rw [hl] at h; cases h
      obtain ⟨h1, h2, h3, h4⟩ := normaliseL_json l l' hl
      exact ⟨h1, h2, h3, h4⟩
  | .list l, w, h => by
    rw [normalise] at h
    cases hl : normaliseL jsonMapping l with
    | error e => rw [hl] at h; cases h
    | ok l' =>
      rw [hl] at h; cases h
      obtain ⟨h1, h2, h3, h4⟩ := normaliseL_json l l' hl
      exact ⟨h1, h2, h3, h4⟩
  | .dict d, w, h => by
    rw [normalise] at h
    cases hl : normaliseD jsonMapping d with
    | error e => rw [hl] at h; cases h
    | ok d' =>
      rw [hl] at h
      obtain ⟨h0, h1, h2, h3, h4⟩ := normaliseD_json d d' hl
      obtain ⟨g1, o, rfl, g2, g3, g4⟩ := json_dict_ok d' w h1 h
      have hk : ∀ k ∈ d.map Prod.fst, KeyOk k := by
        rw [← h0]
        intro k hk
        obtain ⟨kv, hkv, rfl⟩ := List.mem_map.1 hk
        exact g1 kv hkv
      refine ⟨g2, ?_, ⟨hk, h3⟩, ?_⟩
      · intro x hx
        obtain ⟨kv, hkv, hx⟩ := (mem_scalarsD o x).1 hx
        obtain ⟨kv', hm, -, e⟩ := g3 kv hkv
        rw [e] at hx
        exact h2 x ((mem_scalarsD d' x).2 ⟨kv', hm, hx⟩)
      · rintro ⟨e1, e2⟩
        have : (d'.map fun kv => jsonName kv.1).Nodup := by
          rw [NamesDistinct, ← h0] at e1
          simpa [Function.comp_def] using e1
        rw [g4 this]
        show scalarsD _ = scalarsD d
        rw [← h4 e2, scalarsD_values, scalarsD_values]
        simp [List.flatMap_map]
theorem normaliseL_json : ∀ (v w : List PyVal), normaliseL jsonMapping v = .ok w →
    JsonReadyL w ∧ (∀ x ∈ scalarsL w, x ∈ scalarsL v) ∧ EveryDictL (fun ks => ∀ k ∈ ks, KeyOk k) v ∧
      (EveryDictL NamesDistinct v → scalarsL w = scalarsL v)
  | [], w, h => by cases h; exact ⟨trivial, fun _ hx => hx, trivial, fun _ => rfl⟩
  | v :: l, w, h => by
    rw [normaliseL] at h
    cases hv : normalise jsonMapping v with
    | error e => rw [hv] at h; cases h
    | ok v' =>
      cases hl : normaliseL jsonMapping l with
      | error e => rw [hv, hl] at h; cases h
      | ok l' =>
        rw [hv, hl] at h; cases h
        obtain ⟨a1, a2, a3, a4⟩ := normalise_json v v' hv
        obtain ⟨b1, b2, b3, b4⟩ := normaliseL_json l l' hl
        refine ⟨⟨a1, b1⟩, ?_, ⟨a3, b3⟩, ?_⟩
        · intro x hx
          rw [scalarsL, List.mem_append] at hx ⊢
          rcases hx with hx | hx
          · exact .inl (a2 x hx)
          · exact .inr (b2 x hx)
        · rintro ⟨h1, h2⟩
          rw [scalarsL, scalarsL, a4 h1, b4 h2]
theorem normaliseD_json : ∀ (v w : List (Key × PyVal)), normaliseD jsonMapping v = .ok w →
    w.map Prod.fst = v.map Prod.fst ∧ (∀ kv ∈ w, JsonReady kv.2) ∧ (∀ x ∈ scalarsD w, x ∈ scalarsD v) ∧
      EveryDictD (fun ks => ∀ k ∈ ks, KeyOk k) v ∧
      (EveryDictD NamesDistinct v → scalarsD w = scalarsD v)
  | [], w, h => by cases h; exact ⟨rfl, by simp, fun _ hx => hx, trivial, fun _ => rfl⟩
  | (k, v) :: l, w, h => by
    rw [normaliseD] at h
    cases hv : normalise jsonMapping v with
    | error e => rw [hv] at h; cases h
    | ok v' =>
      cases hl : normaliseD jsonMapping l with
      | error e => rw [hv, hl] at h; cases h
      | ok l' =>
        rw [hv, hl] at h; cases h
        obtain ⟨a1, a2, a3, a4⟩ := normalise_json v v' hv
        obtain ⟨b0, b1, b2, b3, b4⟩ := normaliseD_json l l' hl
        refine ⟨by simp [b0], ?_, ?_, ⟨a3, b3⟩, ?_⟩
        · intro kv hkv
          rcases List.mem_cons.1 hkv with rfl | hkv
          · exact a1
          · exact b1 kv hkv
        · intro x hx
          rw [scalarsD, List.mem_append] at hx ⊢
          rcases hx with hx | hx
          · exact .inl (a2 x hx)
          · exact .inr (b2 x hx)
        · rintro ⟨h1, h2⟩
          rw [scalarsD, scalarsD, a4 h1, b4 h2]
end

mutual
/-- It succeeds when every key has a text. -/
theorem normalise_total : ∀ (v : PyVal), EveryDict (fun ks => ∀ k ∈ ks, KeyOk k) v →
    ∃ w, normalise jsonMapping v = .ok w
  | .none, _ | .bool _, _ | .int _, _ | .float _, _ | .str _, _ | .complex _ _, _ => ⟨_, rfl⟩
  | .tuple l, h => by
    obtain ⟨l', hl⟩ := normaliseL_total l h
    exact ⟨.tuple l', by rw [normalise, hl]; rfl⟩
  | .list l, h => by
    obtain ⟨l', hl⟩ := normaliseL_total l h
    exact ⟨.tuple l', by rw [normalise, hl]; rfl⟩
  | .dict d, h => by
    obtain ⟨d', hd⟩ := normaliseD_total d h.2
    obtain ⟨h0, h1, -⟩ := normaliseD_json d d' hd
    have : ∃ w, json_safe (.dict d') = .ok w := by
      rw [json_safe, jsonDict_ready d' [] h1, mapM_keys_ok d' ?_]
      · exact ⟨_, rfl⟩
      · intro kv hkv
        exact h.1 kv.1 (by rw [← h0]; exact List.mem_map.2 ⟨kv, hkv, rfl⟩)
    obtain ⟨w, hw⟩ := this
    exact ⟨w, by rw [normalise, hd]; exact hw⟩
theorem normaliseL_total : ∀ (v : List PyVal), EveryDictL (fun ks => ∀ k ∈ ks, KeyOk k) v →
    ∃ w, normaliseL jsonMapping v = .ok w
  | [], _ => ⟨[], rfl⟩
  | v :: l, h => by
    obtain ⟨v', hv⟩ := normalise_total v h.1
    obtain ⟨l', hl⟩ := normaliseL_total l h.2
    exact ⟨v' :: l', by rw [normaliseL, hv, hl]; rfl⟩
theorem normaliseD_total : ∀ (v : List (Key × PyVal)), EveryDictD (fun ks => ∀ k ∈ ks, KeyOk k) v →
    ∃ w, normaliseD jsonMapping v = .ok w
  | [], _ => ⟨[], rfl⟩
  | (k, v) :: l, h => by
    obtain ⟨v', hv⟩ := normalise_total v h.1
    obtain ⟨l', hl⟩ := normaliseD_total l h.2
    exact ⟨(k, v') :: l', by rw [normaliseD, hv, hl]; rfl⟩
end

/-! ### flatten_dict -/

/-- The separator in force. -/
def sepAt (sep : Str) (b : Bool) : Str := if b then py"_" else sep

/-- The text a way adds to the text of the key it starts from. -/
def suffixText (sep : Str) (p : List Seg) : Str := p.flatMap fun q => sepAt sep q.1 ++ q.2

/-- The entries under a key. -/
def entries (sep t : Str) (l : List (List Seg × PyVal)) : List (Key × PyVal) :=
  l.map fun p => (.str (t ++ suffixText sep p.1), p.2)

theorem entries_append (sep t : Str) (a b) : entries sep t (a ++ b) = entries sep t a ++ entries sep t b := by
  simp [entries]

theorem entries_step (sep t : Str) (b : Bool) (k : Str) (l : List (List Seg × PyVal)) :
    entries sep t (l.map fun p => ((b, k) :: p.1, p.2)) = entries sep (t ++ sepAt sep b ++ k) l := by
  simp [entries, suffixText, Function.comp_def]

theorem flatKey_str (sep t k : Str) (h : t ≠ []) : flatKey sep (.str t) (.str k) = .str (t ++ sep ++ k) := by
  cases t with
  | nil => exact absurd rfl h
  | cons c t => simp [flatKey, Key.truthy, Key.toStr]

mutual
theorem flattenVal_eq (sep : Str) : ∀ (b : Bool) (t : Str) (v : PyVal), t ≠ [] → EveryDict TextKeys v →
    ((entries sep t (leafPaths b v)).map Prod.fst).Nodup →
    flattenVal (sepAt sep b) (.str t) v = entries sep t (leafPaths b v)
  | b, t, .dict d, ht, hk, hn => by
    rw [flattenVal]
    have := flattenItems_eq sep b t d ht hk.1 hk.2 hn
    rw [this]
    exact Dict.ofList_nodup _ hn
  | b, t, .list l, ht, hk, hn => by
    rw [flattenVal]; exact flattenList_eq sep t 0 l ht hk hn
  | b, t, .tuple l, ht, hk, hn => by
    rw [flattenVal]; exact flattenList_eq sep t 0 l ht hk hn
  | b, t, .none, _, _, _ | b, t, .bool _, _, _, _ | b, t, .int _, _, _, _ | b, t, .float _, _, _, _
  | b, t, .str _, _, _, _ | b, t, .complex _ _, _, _, _ => by simp [flattenVal, entries, leafPaths, suffixText]
theorem flattenItems_eq (sep : Str) : ∀ (b : Bool) (t : Str) (d : List (Key × PyVal)), t ≠ [] →
    TextKeys (d.map Prod.fst) → EveryDictD TextKeys d →
    ((entries sep t (leafPathsD b d)).map Prod.fst).Nodup →
    flattenItems (sepAt sep b) (.str t) d = entries sep t (leafPathsD b d)
  | _, _, [], _, _, _, _ => rfl
  | b, t, (k, v) :: d, ht, hk, he, hn => by
    obtain ⟨c, s, rfl⟩ := hk k (by simp)
    rw [leafPathsD, entries_append, List.map_append, List.nodup_append, entries_step] at hn
    rw [flattenItems, flatKey_str _ _ _ ht, leafPathsD, entries_append, entries_step,
      flattenVal_eq sep b _ v (by simp) he.1 hn.1,
      flattenItems_eq sep b t d ht (fun k hk' => hk k (by simp at hk' ⊢; exact .inr hk')) he.2 hn.2.1]
theorem flattenList_eq (sep : Str) : ∀ (t : Str) (i : Nat) (l : List PyVal), t ≠ [] → EveryDictL TextKeys l →
    ((entries sep t (leafPathsL i l)).map Prod.fst).Nodup →
    flattenList (.str t) i l = entries sep t (leafPathsL i l)
  | _, _, [], _, _, _ => rfl
  | t, i, v :: l, ht, he, hn => by
    rw [leafPathsL, entries_append, List.map_append, List.nodup_append, entries_step] at hn
    have h1 := flattenVal_eq sep true (t ++ py"_" ++ natStr i) v (by simp) he.1 hn.1
    rw [flattenList, flatKey_str _ _ _ ht, leafPathsL, entries_append, entries_step,
      flattenList_eq sep t (i + 1) l ht he.2 hn.2.1]
    rw [show py"_" = sepAt sep true from rfl] at h1 ⊢
    rw [h1, Dict.ofList_nodup _ hn.1]
end

/-- The text of a whole way. -/
def wayText (sep : Str) : List Seg → Str
  | [] => []
  | q :: p => q.2 ++ suffixText sep p

theorem flattenItems_top (sep : Str) : ∀ (d : List (Key × PyVal)), TextKeys (d.map Prod.fst) →
    EveryDictD TextKeys d → ((leafPathsD false d).map fun p => wayText sep p.1).Nodup →
    flattenItems sep (.str []) d = (leafPathsD false d).map fun p => (.str (wayText sep p.1), p.2)
  | [], _, _, _ => rfl
  | (k, v) :: d, hk, he, hn => by
    obtain ⟨c, s, rfl⟩ := hk k (by simp)
    rw [leafPathsD, List.map_append, List.nodup_append, List.map_map] at hn
    have h1 := flattenVal_eq sep false (c :: s) v (by simp) he.1 (by
      have := hn.1
      simp only [entries, List.map_map]
      have h2 := List.Nodup.map (f := Key.str) (fun a b e => by injection e) this
      simpa [Function.comp_def, wayText] using h2)
    rw [flattenItems, show flatKey sep (.str []) (.str (c :: s)) = .str (c :: s) from rfl,
      flattenItems_top sep d (fun k hk' => hk k (by simp at hk' ⊢; exact .inr hk')) he.2 hn.2.1,
      show sep = sepAt sep false from rfl, h1, leafPathsD, List.map_append, List.map_map]
    rfl

theorem suffix_default (p : List Seg) (h : p ≠ []) : suffixText (py"_") p = py"_" ++ pathText (py"_") p := by
  induction p with
  | nil => exact absurd rfl h
  | cons q p ih =>
    have e : sepAt (py"_") q.1 = py"_" := by simp [sepAt]
    cases p with
    | nil => simp [suffixText, pathText, Str.join, e]
    | cons r p =>
      have := ih (by simp)
      simp only [suffixText, List.flatMap_cons, pathText, List.map_cons] at this ⊢
      rw [this, e, Str.join_cons (py"_") q.2 _ (by simp)]
      simp

/-- With the default separator the text of a way is the plain join. -/
theorem wayText_default (p : List Seg) : wayText (py"_") p = pathText (py"_") p := by
  cases p with
  | nil => rfl
  | cons q p =>
    cases p with
    | nil => simp [wayText, suffixText, pathText, Str.join]
    | cons r p =>
      rw [wayText, suffix_default _ (by simp)]
      simp only [pathText, List.map_cons]
      rw [Str.join_cons _ q.2 _ (by simp)]
      simp

mutual
theorem noSeq_paths : ∀ (v : PyVal), NoSeq v → ∀ p ∈ leafPaths false v, ∀ q ∈ p.1, q.1 = false
  | .dict d, h => noSeqD_paths d h
  | .none, _ | .bool _, _ | .int _, _ | .float _, _ | .str _, _ | .complex _ _, _ => by
    intro p hp; simp only [leafPaths, List.mem_singleton] at hp; subst hp; simp
  | .tuple _, h => h.elim
  | .list _, h => h.elim
theorem noSeqD_paths : ∀ (d : List (Key × PyVal)), NoSeqD d → ∀ p ∈ leafPathsD false d, ∀ q ∈ p.1, q.1 = false
  | [], _ => by intro p hp; cases hp
  | (.str k, v) :: d, h => by
    intro p hp q hq
    rw [leafPathsD, List.mem_append] at hp
    rcases hp with hp | hp
    · obtain ⟨r, hr, rfl⟩ := List.mem_map.1 hp
      rcases List.mem_cons.1 hq with rfl | hq
      · rfl
      · exact noSeq_paths v h.1 r hr q hq
    · exact noSeqD_paths d h.2 p hp q hq
  | (.none, v) :: d, h | (.bool _, v) :: d, h | (.int _, v) :: d, h | (.tup _, v) :: d, h => by
    intro p hp; rw [leafPathsD] at hp
    · exact noSeqD_paths d h.2 p hp
    · simp
end

/-- Without sequences the text of a way is the plain join. -/
theorem wayText_noSeq (sep : Str) (p : List Seg) (h : ∀ q ∈ p, q.1 = false) : wayText sep p = pathText sep p := by
  have key : ∀ (p : List Seg), (∀ q ∈ p, q.1 = false) → p ≠ [] → suffixText sep p = sep ++ pathText sep p := by
    intro p
    induction p with
    | nil => intro _ hn; exact absurd rfl hn
    | cons q p ih =>
      intro hq _
      have e : sepAt sep q.1 = sep := by simp [sepAt, hq q (by simp)]
      cases p with
      | nil => simp [suffixText, pathText, Str.join, e]
      | cons r p =>
        have := ih (fun x hx => hq x (by simp [hx])) (by simp)
        simp only [suffixText, List.flatMap_cons, pathText, List.map_cons] at this ⊢
        rw [this, e, Str.join_cons sep q.2 _ (by simp)]
        simp
  cases p with
  | nil => rfl
  | cons q p =>
    cases p with
    | nil => simp [wayText, suffixText, pathText, Str.join]
    | cons r p =>
      rw [wayText, key _ (fun x hx => h x (by simp [hx])) (by simp)]
      simp only [pathText, List.map_cons]
      rw [Str.join_cons _ q.2 _ (by simp)]
      simp

/-! ### stack_dict -/
section
variable {κ α : Type} [DecidableEq κ]

theorem stack_get (row : Dict κ α) (out : Dict κ (List α)) (h : row.keys.Nodup) (k : κ) :
    (stack_dict out row).get? k =
      match row.get? k with
      | some v => some ((out.get? k).getD [] ++ [v])
      | none => out.get? k := by
  induction row generalizing out with
  | nil => rfl
  | cons kv row ih =>
    obtain ⟨k', v⟩ := kv
    simp only [Dict.keys, List.map_cons, List.nodup_cons] at h
    rw [stack_dict, ih _ h.2, Dict.get?]
    by_cases hk : k' = k
    · subst hk
      rw [if_pos rfl, (Dict.get?_eq_none row k').2 h.1, Dict.get?_set_self]
    · rw [if_neg hk, Dict.get?_set_ne _ _ _ _ (Ne.symm hk)]

theorem stack_rows (rows : List (Dict κ α)) (out : Dict κ (List α)) (h : ∀ r ∈ rows, r.keys.Nodup) (k : κ) :
    ((rows.foldl stack_dict out).get? k).getD [] = (out.get? k).getD [] ++ rows.filterMap (·.get? k) := by
  induction rows generalizing out with
  | nil => simp
  | cons r rows ih =>
    rw [List.foldl_cons, ih _ fun x hx => h x (by simp [hx]), stack_get r out (h r (by simp)) k, List.filterMap_cons]
    cases r.get? k <;> simp

theorem stack_none (rows : List (Dict κ α)) (out : Dict κ (List α)) (h : ∀ r ∈ rows, r.keys.Nodup) (k : κ) :
    (rows.foldl stack_dict out).get? k = none ↔ out.get? k = none ∧ ∀ r ∈ rows, r.get? k = none := by
  induction rows generalizing out with
  | nil => simp
  | cons r rows ih =>
    rw [List.foldl_cons, ih _ fun x hx => h x (by simp [hx]), stack_get r out (h r (by simp)) k]
    cases hr : r.get? k <;> simp [hr]

/-! ### add_aliases -/

/-- The loop on one object. -/
def aliasInplace (replace : Bool) (d : Dict κ α) : List (κ × κ) → Dict κ α
  | [] => d
  | (frm, new) :: l =>
    match d.get? frm with
    | some v => aliasInplace replace (if replace then (d.set new v).erase frm else d.set new v) l
    | none => aliasInplace replace d l

/-- The loop reading one object and writing another. -/
def aliasCopy (replace : Bool) (d out : Dict κ α) : List (κ × κ) → Dict κ α
  | [] => out
  | (frm, new) :: l =>
    match d.get? frm with
    | some v => aliasCopy replace d (if replace then (out.set new v).erase frm else out.set new v) l
    | none => aliasCopy replace d out l

theorem aliasLoop_inplace (replace : Bool) (l : List (κ × κ)) (o : Objs κ α) :
    (aliasLoop replace true o l).inDict = aliasInplace replace o.inDict l := by
  induction l generalizing o with
  | nil => rfl
  | cons p l ih =>
    obtain ⟨f, n⟩ := p
    rw [aliasLoop, aliasInplace]
    cases o.inDict.get? f with
    | none => exact ih o
    | some v =>
      simp only
      rw [ih]
      cases replace <;> rfl

theorem aliasLoop_copy (replace : Bool) (l : List (κ × κ)) (o : Objs κ α) :
    (aliasLoop replace false o l).inDict = o.inDict ∧
    (aliasLoop replace false o l).copied = aliasCopy replace o.inDict o.copied l := by
  induction l generalizing o with
  | nil => exact ⟨rfl, rfl⟩
  | cons p l ih =>
    obtain ⟨f, n⟩ := p
    rw [aliasLoop, aliasCopy]
    cases o.inDict.get? f with
    | none => exact ih o
    | some v =>
      simp only
      refine ⟨?_, ?_⟩
      · rw [(ih _).1]; cases replace <;> rfl
      · rw [(ih _).2]; cases replace <;> rfl

theorem get?_erase_ne (d : Dict κ α) (k k' : κ) (h : k' ≠ k) : (d.erase k).get? k' = d.get? k' := by
  induction d with
  | nil => rfl
  | cons kv d ih =>
    obtain ⟨a, v⟩ := kv
    rw [Dict.erase]
    split
    · rename_i e; subst e; rw [Dict.get?, if_neg (Ne.symm h)]
    · rw [Dict.get?, Dict.get?, ih]

theorem get?_erase_self (d : Dict κ α) (k : κ) (h : d.keys.Nodup) : (d.erase k).get? k = none := by
  induction d with
  | nil => rfl
  | cons kv d ih =>
    obtain ⟨a, v⟩ := kv
    simp only [Dict.keys, List.map_cons, List.nodup_cons] at h
    rw [Dict.erase]
    split
    · rename_i e; subst e; exact (Dict.get?_eq_none d a).2 h.1
    · rename_i e; rw [Dict.get?, if_neg e]; exact ih h.2

theorem nodup_erase (d : Dict κ α) (k : κ) (h : d.keys.Nodup) : (d.erase k).keys.Nodup := by
  induction d with
  | nil => exact h
  | cons kv d ih =>
    obtain ⟨a, v⟩ := kv
    simp only [Dict.keys, List.map_cons, List.nodup_cons] at h
    rw [Dict.erase]
    split
    · exact h.2
    · simp only [Dict.keys, List.map_cons, List.nodup_cons]
      refine ⟨?_, ih h.2⟩
      intro hm
      apply h.1
      have : ∀ (d : Dict κ α) x, x ∈ (d.erase k).map Prod.fst → x ∈ d.map Prod.fst := by
        intro d
        induction d with
        | nil => intro x hx; exact hx
        | cons kv d ih' =>
          intro x hx
          rw [Dict.erase] at hx
          split at hx
          · simp at hx ⊢; exact .inr hx
          · simp only [List.map_cons, List.mem_cons] at hx ⊢
            rcases hx with hx | hx
            · exact .inl hx
            · exact .inr (ih' x hx)
      exact this d a hm

/-- What an alias map makes of a dictionary. -/
def aliased (d : Dict κ α) (l : List (κ × κ)) (replace : Bool) (k : κ) : Option α :=
  match l.find? (fun p => p.2 = k) with
  | some p => (d.get? p.1).or (d.get? k)
  | none => if replace && (l.map Prod.fst).contains k then none else d.get? k

theorem aliasInplace_get (replace : Bool) (l : List (κ × κ)) (d : Dict κ α) (hd : d.keys.Nodup)
    (hs : (l.map Prod.fst).Nodup) (ht : (l.map Prod.snd).Nodup) (hst : ∀ p ∈ l, ∀ q ∈ l, p.1 ≠ q.2) (k : κ) :
    (aliasInplace replace d l).get? k = aliased d l replace k := by
  induction l generalizing d with
  | nil => simp [aliasInplace, aliased]
  | cons p l ih =>
    obtain ⟨f, n⟩ := p
    simp only [List.map_cons, List.nodup_cons] at hs ht
    have hfn : f ≠ n := hst (f, n) (by simp) (f, n) (by simp)
    have hf : ∀ q ∈ l, q.1 ≠ f := fun q hq e => hs.1 (List.mem_map.2 ⟨q, hq, e⟩)
    have hn : ∀ q ∈ l, q.2 ≠ n := fun q hq e => ht.1 (List.mem_map.2 ⟨q, hq, e⟩)
    have hqn : ∀ q ∈ l, q.1 ≠ n := fun q hq => hst q (by simp [hq]) (f, n) (by simp)
    have hfq : ∀ q ∈ l, f ≠ q.2 := fun q hq => hst (f, n) (by simp) q (by simp [hq])
    have hst' : ∀ p ∈ l, ∀ q ∈ l, p.1 ≠ q.2 := fun p hp q hq => hst p (by simp [hp]) q (by simp [hq])
    rw [aliasInplace]
    cases hg : d.get? f with
    | none =>
      simp only
      rw [ih d hd hs.2 ht.2 hst', aliased, aliased, List.find?_cons]
      by_cases hk : n = k
      · subst hk
        have : l.find? (fun p => p.2 = n) = none := by
          rw [List.find?_eq_none]; intro q hq; simpa using hn q hq
        have hc : (l.map Prod.fst).contains n = false := by
          simp; intro x hx; exact hqn _ hx rfl
        simp [this, hg]
        intro _ x hx
        exact absurd rfl (hqn _ hx)
      · simp only [hk, decide_false]
        cases l.find? (fun p => p.2 = k) with
        | some q => rfl
        | none =>
          by_cases hkf : k = f
          · subst hkf; simp [hg]
          · simp only [List.map_cons, List.contains_cons, beq_false_of_ne hkf, Bool.false_or]
    | some v =>
      simp only
      generalize hd' : (if replace = true then (d.set n v).erase f else d.set n v) = d'
      have hnd : d'.keys.Nodup := by
        subst hd'
        split
        · exact nodup_erase _ _ (Dict.nodup_set _ _ _ hd)
        · exact Dict.nodup_set _ _ _ hd
      have hget : ∀ x, x ≠ f → d'.get? x = if x = n then some v else d.get? x := by
        intro x hx
        subst hd'
        have : (d.set n v).get? x = if x = n then some v else d.get? x := by
          by_cases hxn : x = n
          · subst hxn; rw [if_pos rfl, Dict.get?_set_self]
          · rw [if_neg hxn, Dict.get?_set_ne _ _ _ _ hxn]
        split
        · rw [get?_erase_ne _ _ _ hx, this]
        · exact this
      have hgf : d'.get? f = if replace then none else some v := by
        subst hd'
        split
        · exact get?_erase_self _ _ (Dict.nodup_set _ _ _ hd)
        · rw [Dict.get?_set_ne _ _ _ _ hfn, hg]
      rw [ih d' hnd hs.2 ht.2 hst', aliased, aliased, List.find?_cons]
      by_cases hk : n = k
      · subst hk
        have : l.find? (fun p => p.2 = n) = none := by
          rw [List.find?_eq_none]; intro q hq; simpa using hn q hq
        have hc : (l.map Prod.fst).contains n = false := by
          simp; intro x hx; exact hqn _ hx rfl
        simp only [this, hc, Bool.and_false, decide_true, hg]
        rw [hget n (Ne.symm hfn)]; simp
      · simp only [hk, decide_false]
        cases hfd : l.find? (fun p => p.2 = k) with
        | some q =>
          have hq := List.mem_of_find?_eq_some hfd
          have hq2 : q.2 = k := by simpa using List.find?_some hfd
          simp only
          rw [hget q.1 (hf q hq), hget k (by rw [← hq2]; exact Ne.symm (hfq q hq)), if_neg (hqn q hq),
            if_neg (Ne.symm hk)]
        | none =>
          simp only
          by_cases hkf : k = f
          · subst hkf
            have hc : (l.map Prod.fst).contains k = false := by
              simp; intro x hx; exact hf _ hx rfl
            rw [hgf, hc]
            cases replace <;> simp [hg]
          · rw [hget k hkf, if_neg (Ne.symm hk)]
            simp only [List.map_cons, List.contains_cons, beq_false_of_ne hkf, Bool.false_or]

theorem aliasCopy_get (replace : Bool) (l : List (κ × κ)) (d out : Dict κ α) (ho : out.keys.Nodup)
    (hs : (l.map Prod.fst).Nodup) (ht : (l.map Prod.snd).Nodup) (hst : ∀ p ∈ l, ∀ q ∈ l, p.1 ≠ q.2)
    (hsame : ∀ p ∈ l, out.get? p.1 = d.get? p.1) (k : κ) :
    (aliasCopy replace d out l).get? k = aliased out l replace k := by
  have : ∀ (l : List (κ × κ)) (out : Dict κ α), out.keys.Nodup → (l.map Prod.fst).Nodup →
      (∀ p ∈ l, ∀ q ∈ l, p.1 ≠ q.2) → (∀ p ∈ l, out.get? p.1 = d.get? p.1) →
      aliasCopy replace d out l = aliasInplace replace out l := by
    intro l
    induction l with
    | nil => intros; rfl
    | cons p l ih =>
      intro out ho hs hst h
      obtain ⟨f, n⟩ := p
      simp only [List.map_cons, List.nodup_cons] at hs
      rw [aliasCopy, aliasInplace, ← h (f, n) (by simp)]
      have hst' : ∀ p ∈ l, ∀ q ∈ l, p.1 ≠ q.2 := fun p hp q hq => hst p (by simp [hp]) q (by simp [hq])
      cases hg : out.get? f with
      | none => exact ih out ho hs.2 hst' fun p hp => h p (by simp [hp])
      | some v =>
        simp only
        apply ih
        · split
          · exact nodup_erase _ _ (Dict.nodup_set _ _ _ ho)
          · exact Dict.nodup_set _ _ _ ho
        · exact hs.2
        · exact hst'
        · intro p hp
          have h1 : p.1 ≠ f := fun e => hs.1 (List.mem_map.2 ⟨p, hp, e⟩)
          have h2 : p.1 ≠ n := hst p (by simp [hp]) (f, n) (by simp)
          rw [← h p (by simp [hp])]
          split
          · rw [get?_erase_ne _ _ _ h1, Dict.get?_set_ne _ _ _ _ h2]
          · rw [Dict.get?_set_ne _ _ _ _ h2]
  rw [this l out ho hs hst hsame, aliasInplace_get replace l out ho hs ht hst]
end

end Verif

import Verif.Spec.CastepDoc
import Verif.Lemmas.SettingVal
import Verif.Lemmas.AtomTables
import Verif.Lemmas.CastepRows
import Verif.Lemmas.CastepMatrix
import Verif.Lemmas.BandTable
/-
Helpers for the table of molecular dynamics in a `.castep` file, and names of keys.
-/
namespace Verif.Castep
open Verif Spec Re NumRe AtomRe

theorem wordsAux_sep {q : Nat → Bool} {c : Nat} (hc : q c = true) (b : Str) : ∀ (a cur : Str),
    Str.wordsAux q cur (a ++ c :: b) = Str.wordsAux q cur a ++ Str.wordsAux q [] b
  | [], cur => by
    rw [List.nil_append]
    cases cur <;> simp [Str.wordsAux, hc]
  | d :: a, cur => by
    rw [List.cons_append, Str.wordsAux, Str.wordsAux]
    split
    · split
      · exact wordsAux_sep hc b a []
      · rw [wordsAux_sep hc b a []]; rfl
    · exact wordsAux_sep hc b a _

theorem wordsAux_split {q : Nat → Bool} (hq : ∀ c, isSpace c = true → q c = true) : ∀ (s cur : Str),
    (Str.wordsAux isSpace cur s).flatMap (Str.wordsAux q []) = Str.wordsAux q [] (cur.reverse ++ s)
  | [], cur => by
    rw [Str.wordsAux]
    cases cur with
    | nil => rfl
    | cons c cur => simp
  | c :: s, cur => by
    rw [Str.wordsAux]
    split
    · rename_i h
      rw [wordsAux_sep (hq c h)]
      cases cur with
      | nil =>
        have := wordsAux_split hq s []
        simpa [Str.wordsAux] using this
      | cons d cur =>
        rw [if_neg (by simp), List.flatMap_cons, wordsAux_split hq s []]; rfl
    · rw [wordsAux_split hq s (c :: cur)]; simp

theorem wordsAux_joined {q : Nat → Bool} (hq : q (c!" ") = true) : ∀ ws : List Str,
    Str.wordsAux q [] (Str.join (py" ") ws) = ws.flatMap (Str.wordsAux q [])
  | [] => rfl
  | [a] => by simp [Str.join]
  | a :: b :: l => by
    rw [Str.join, List.append_assoc]
    show Str.wordsAux q [] (a ++ (c!" ") :: Str.join (py" ") (b :: l)) = _
    rw [wordsAux_sep hq, wordsAux_joined hq (b :: l)]; rfl

theorem space_alnum : ∀ c, isSpace c = true → (fun c => !isAlnum c) c = true := by
  intro c h
  simp only [Bool.not_eq_true', isAlnum, Bool.or_eq_false_iff]
  simp [isSpace] at h
  constructor
  · rw [Bool.eq_false_iff, Ne, isAlpha_iff]; omega
  · rw [Bool.eq_false_iff]; simp [isDigit]; omega

theorem normalise_key_string (s : Str) : normalise_key (normalise_string s) = normalise_key s := by
  have hq := space_alnum
  rw [normalise_key_eq, normalise_key_eq, normalise_string, split_strip, alnumWords, wordsAux_joined (hq _ rfl), Str.split, wordsAux_split hq, alnumWords]
  rfl

theorem normalise_key_strip (s : Str) : normalise_key (Str.strip s) = normalise_key s := by
  have e : ∀ s, alnumWords s = (Str.split s).flatMap alnumWords := fun s => by
    rw [alnumWords, Str.split]; exact (wordsAux_split space_alnum s []).symm
  rw [normalise_key_eq, normalise_key_eq, e, split_strip, ← e]

/-! ### The table of molecular dynamics -/

/-- `[a-zA-Z]` -/
abbrev letterSet : CSet := ⟨false, [.range 97 122, .range 65 90], false⟩
/-- `[A-Za-z ]` -/
abbrev letterSp : CSet := ⟨false, [.range 65 90, .range 97 122, .ch 32], false⟩

theorem MD_DATA_eq : MD_DATA_RE.re = litThen (py"x") (.seq (plus sp) (.seq (.group 1 (.seq (.set letterSet) (plus letterSp)))
    (.seq (.set (ch 58)) (.seq (star sp) (.group 2 F))))) := by
  decide +kernel

theorem MD_DATA_names : MD_DATA_RE.names = [(py"key", 1), (py"val", 2)] := by decide +kernel

theorem has_letter (c : Nat) : letterSet.has c = true ↔ isAlpha c = true := by
  simp [CSet.has, CItem.has, isAlpha_iff]

theorem has_letterSp (c : Nat) : letterSp.has c = true ↔ isAlpha c = true ∨ c = 32 := by
  simp [CSet.has, CItem.has, isAlpha_iff]; omega

/-- A group with a character of one class and some of another. -/
theorem _root_.Verif.Gets.name {r : Re} {i : Nat} {as cs : CSet} {a : Nat} {w s : Str} {pre caps C} (ha : as.has a = true) (hw : ∀ c ∈ w, cs.has c = true) (hne : w ≠ [])
    (hs : Stops cs s) (h : Gets r ((a :: w).reverse ++ pre) s ((i, a :: w) :: caps) C) :
    Gets (.seq (.group i (.seq (.set as) (plus cs))) r) pre (a :: w ++ s) caps C := by
  obtain ⟨t, h5, h6⟩ := h
  refine ⟨t, ?_, h6⟩
  rw [run_seq, run_group, run_seq]
  rw [List.cons_append, run_set_cons, if_pos ha]
  apply run_plus_all cs 1 w _ _ _ _ _ _ (by cases w with | nil => exact absurd rfl hne | cons c s => simp) hw hs (by simp)
  have e : St.upTo ⟨pre, a :: (w ++ s), caps⟩ ⟨w.reverse ++ (a :: pre), s, caps⟩ = a :: w := Re.upTo_append pre (a :: w) s caps _ caps
  rw [e]
  simpa using h5

theorem md_line {l : Str} {r : Str × Numeral} (h : MdLine l r) (hv : r.2.Valid) (hp : HasPoint r.2) :
    ∃ m raw, MD_DATA_RE.search l = some m ∧ m.caps = [(2, (mantissa r.2).text), (1, raw)] ∧ m.names = MD_DATA_RE.names ∧ KeyName raw r.1 := by
  obtain ⟨lead, g, a, name, g', rest, rfl, hx, hg, hgne, ha, hne, hn, hk, hg', hr⟩ := h
  obtain ⟨m, h1, h2, h3⟩ := search_litAt (q := MD_DATA_RE) (c0 := c!"x") (w := []) (C := (· = [(2, (mantissa r.2).text), (1, a :: name)])) MD_DATA_eq
    (u := lead) (s := c!"x" :: (g ++ (a :: (name ++ (c!":" :: (g' ++ (r.2.text ++ rest))))))) hx (by
      rw [MD_DATA_eq]
      refine Gets.lit (py"x") _ ?_
      refine Gets.pluses (fun c hc => by simpa [CSet.has, CItem.has] using hg c hc) hgne ?_ ?_
      · intro c hc
        cases hc
        rw [Bool.eq_false_iff]
        intro h
        rw [isAlpha_iff] at ha
        simp [CSet.has, CItem.has, isSpace] at h
        omega
      · refine Gets.name (w := name) ((has_letter _).2 ha) (fun c hc => (has_letterSp c).2 (hn c hc)) hne ?_ ?_
        · intro c hc
          cases hc
          decide
        · refine Gets.char (by decide) ?_
          refine Gets.stars (fun c hc => by simpa [CSet.has, CItem.has] using hg' c hc) ?_ ?_
          · exact BandTab.stops_num hv _
          · exact Gets.point hv hp hr rfl)
  exact ⟨m, a :: name, h1, h2, h3, hk⟩

theorem md_noDigit {l : Str} (h : NoDigit l) : MD_DATA_RE.search l = none := by
  refine AtomVec.search_noDigit (fun w hw => ?_) h
  rw [MD_DATA_eq] at hw
  obtain ⟨t, rfl, h⟩ := lang_litThen hw
  obtain ⟨u1, v1, rfl, -, u2, v2, rfl, -, u3, v3, rfl, -, u4, v4, rfl, -, h5⟩ := h
  obtain ⟨n, hn, -, -, rfl⟩ := lang_F h5
  obtain ⟨c, hc, hd⟩ := text_digit n hn
  exact ⟨c, by simp [hc], by simpa [isDigit] using hd⟩

theorem md_other {l : Str} (h : MdOther l) : MD_DATA_RE.search l = none := by
  rcases h with h | ⟨a, c, b, rest, rfl, h1, h2, h3, h4, h5, h6, h7, h8⟩
  · exact md_noDigit h
  · cases hs : MD_DATA_RE.search (a ++ c :: (b ++ c!":" :: rest)) with
    | none => rfl
    | some m =>
      exfalso
      obtain ⟨u, v, e, hl⟩ := search_found hs
      rw [MD_DATA_eq] at hl
      obtain ⟨t, ew, hl⟩ := lang_litThen hl
      obtain ⟨u1, v1, rfl, hu1, u2, v2, rfl, hu2, u3, v3, rfl, hu3, -⟩ := hl
      obtain ⟨d, hd, rfl⟩ := hu3
      have hd : d = 58 := by simpa [CSet.has, CItem.has] using hd
      subst hd
      have hp : ∀ y ∈ u1 ++ u2, isSpace y = true ∨ isAlpha y = true := by
        intro y hy
        rcases List.mem_append.1 hy with hy | hy
        · left
          rw [← has_sp]; exact ((lang_rep_set ..).1 hu1).1 y hy
        · obtain ⟨x1, x2, rfl, ⟨z, hz, rfl⟩, hx2⟩ := hu2
          rcases List.mem_cons.1 hy with rfl | hy
          · exact .inr ((has_letter _).1 hz)
          · rcases (has_letterSp y).1 (((lang_rep_set ..).1 hx2).1 y hy) with h | rfl
            · exact .inr h
            · exact .inl rfl
      have hb : ∀ y ∈ u1 ++ u2, y ≠ 58 := by
        rintro y hy rfl
        rcases hp _ hy with h | h <;> revert h <;> decide
      rw [ew] at e
      have e' : (a ++ c :: b) ++ 58 :: rest = (u ++ 120 :: (u1 ++ u2)) ++ 58 :: (v3 ++ v) := by
        simpa using e
      have e2 : a ++ c :: b = u ++ 120 :: (u1 ++ u2) := by
        have hA : (58 : Nat) ∉ a ++ c :: b := by
          simp only [List.mem_append, List.mem_cons, not_or]
          exact ⟨h1, Ne.symm h6, h2⟩
        rcases List.append_eq_append_iff.1 e' with ⟨d, h, h'⟩ | ⟨d, h, h'⟩
        · cases d with
          | nil => simpa using h.symm
          | cons x d =>
            injection h' with h9 h'
            exact absurd (by rw [h']; simp) h3
        · cases d with
          | nil => simpa using h
          | cons x d =>
            injection h' with h9 h'
            subst h9
            exact absurd (by rw [h]; simp) hA
      rcases List.append_eq_append_iff.1 e2 with ⟨d, h, h'⟩ | ⟨d, h, h'⟩
      · cases d with
        | nil => injection h' with h9 h'; exact h5 h9
        | cons x d => injection h' with h9 h'; exact h4 (by rw [h']; simp)
      · cases d with
        | nil => injection h' with h9 h'; exact h5 h9.symm
        | cons x d =>
          injection h' with h9 h'
          rcases hp c (by rw [h']; simp) with h | h
          · rw [h8] at h; cases h
          · rw [h7] at h; cases h

/-- The entries before the names are made keys. -/
theorem md_rows {fl : Numeral → F64} {ls : List Str} {rows : List (Str × Numeral)} (h : Interleaved MdOther MdLine ls rows)
    (hok : ∀ r ∈ rows, (r.2.Valid ∧ HasPoint r.2 ∧ r.2.exp = none) ∧ pyFloat r.2.text = .ok (fl r.2)) :
    ∃ raws : List Str, raws.map normalise_key = rows.map Prod.fst ∧
      collect (onSearch MD_DATA_RE fun m => do
        let v ← grpFloat m (py"val")
        return (Key.str (Str.strip ((m.named (py"key")).getD [])), v)) ls = .ok ((raws.zip rows).map fun p => (Key.str p.1, PyVal.float (fl p.2.2))) := by
  induction h with
  | nil => exact ⟨[], rfl, rfl⟩
  | skip hl _ ih =>
    obtain ⟨raws, h1, h2⟩ := ih hok
    refine ⟨raws, h1, ?_⟩
    rw [collect]
    unfold onSearch
    rw [md_other hl]
    exact h2
  | @row l ls r rows hl _ ih =>
    obtain ⟨raws, h1, h2⟩ := ih fun r hr => hok r (by simp [hr])
    obtain ⟨m, raw, e1, e2, e3, e4⟩ := md_line hl (hok r (by simp)).1.1 (hok r (by simp)).1.2.1
    rw [MD_DATA_names] at e3
    rw [mantissa_none (hok r (by simp)).1.2.2] at e2
    have n1 : m.named (py"key") = some raw := by rw [Castep.named_eq e2 e3]; rfl
    have n2 : m.named (py"val") = some r.2.text := by rw [Castep.named_eq e2 e3]; rfl
    have n3 : grpFloat m (py"val") = .ok (.float (fl r.2)) := by
      rw [grpFloat, grp, n2]
      show (do let x ← pyFloat r.2.text; pure (PyVal.float x) : PyM PyVal) = _
      rw [(hok r (by simp)).2]
      rfl
    refine ⟨Str.strip raw :: raws, by rw [List.map_cons, List.map_cons, h1, normalise_key_strip, LineTab.keyName e4], ?_⟩
    rw [collect]
    conv => lhs; arg 1; unfold onSearch
    rw [e1]
    dsimp only
    rw [n3]
    rw [n1]
    show (do let xs ← collect _ ls; pure ((Key.str (Str.strip raw), PyVal.float (fl r.2)) :: xs)) = _
    rw [h2]
    rfl

theorem md_block {fl : Numeral → F64} {ls : List Str} {rows : List (Str × Numeral)} (h : Interleaved MdOther MdLine ls rows)
    (hok : ∀ r ∈ rows, (r.2.Valid ∧ HasPoint r.2 ∧ r.2.exp = none) ∧ pyFloat r.2.text = .ok (fl r.2)) (hd : (rows.map Prod.fst).Nodup) :
    process_md_block ls = .ok (rows.map fun r => (.str r.1, .float (fl r.2))) := by
  obtain ⟨raws, h1, h2⟩ := md_rows h hok
  have hlen : raws.length = rows.length := by simpa using congrArg List.length h1
  have hr : raws.Nodup := by
    rw [← h1] at hd
    exact List.Nodup.of_map _ hd
  rw [process_md_block, collectDict, h2]
  show (Except.ok (mdKeys (Dict.ofList _)) : PyM _) = _
  rw [Dict.ofList_nodup]
  · rw [mdKeys]
    have e : ((raws.zip rows).map fun p => (Key.str p.1, PyVal.float (fl p.2.2))).map (fun (k, v) => (match k with | .str s => Key.str (normalise_key s) | k => k, v)) =
        rows.map fun r => (Key.str r.1, PyVal.float (fl r.2)) := by
      rw [List.map_map]
      clear h2 hr hd h hok
      induction raws generalizing rows with
      | nil => cases rows with | nil => rfl | cons => cases hlen
      | cons x raws ih =>
        cases rows with
        | nil => cases hlen
        | cons r rows =>
          injection h1 with e1 e2
          rw [List.zip_cons_cons, List.map_cons, List.map_cons, ih e2 (by simpa using hlen)]
          simp only [Function.comp_apply, e1]
    refine congrArg Except.ok ?_
    refine (congrArg Dict.ofList e).trans (Dict.ofList_nodup _ ?_)
    rw [List.map_map]
    have : rows.map (Prod.fst ∘ fun r => (Key.str r.1, PyVal.float (fl r.2))) = (rows.map Prod.fst).map Key.str := by
      rw [List.map_map]; rfl
    rw [this]
    exact hd.map fun a b e => by injection e
  · rw [List.map_map]
    have : (raws.zip rows).map (Prod.fst ∘ fun p => (Key.str p.1, PyVal.float (fl p.2.2))) = raws.map Key.str := by
      have : (raws.zip rows).map Prod.fst = raws := List.map_fst_zip (by omega)
      conv => rhs; rw [← this]
      rw [List.map_map]; rfl
    rw [this]
    exact hr.map fun a b e => by injection e

end Verif.Castep

import Verif.Lemmas.MdFile
import Verif.Lemmas.Slice
/-
The lazy reader refines the abstract reader.
-/
namespace Verif.Props
open Verif Spec MdGeom

/-- A reader and the generators made from it. -/
structure World where
  parser : MDGeomParser
  gens : List MDGeomParser.Gen

/-- One operation on the modelled reader. -/
def runOp (w : World) : MdOp → MdSeen × World
  | .getFrame i => let r := w.parser.get_frame i; (.frame r.1, { w with parser := r.2 })
  | .readNext => let r := w.parser.read_next; (.frame r.1, { w with parser := r.2 })
  | .getMany l => let r := w.parser.get_frames l; (.frames r.1, { w with parser := r.2 })
  | .slice a b c => let r := w.parser.get_slice a b c; (.frames r.1, { w with parser := r.2 })
  | .newIter => (.unit, { w with gens := w.gens ++ [.fresh] })
  | .send j trial =>
    match w.gens[j]? with
    | none => (.unit, w)
    | some g =>
      let r := w.parser.send g trial
      (.frame r.1, ⟨r.2.2, w.gens.set j r.2.1⟩)

/-- A history of operations on the modelled reader. -/
def runOps (w : World) : List MdOp → List MdSeen × World
  | [] => ([], w)
  | op :: ops =>
    let r := runOp w op
    let rs := runOps r.2 ops
    (r.1 :: rs.1, rs.2)

/-- The abstract state of a generator. -/
def toIter : MDGeomParser.Gen → MdIter
  | .fresh => .new
  | .at i => .last i
  | .done => .finished

/-- What each frame of a trajectory parses to. -/
def results (F : MdFile) : List (PyM PyVal) := F.frames.map fun f => parse_md_geom_frame f.lines

section
variable {F : MdFile} {h b : Nat} (hF : ∀ f ∈ F.frames, f.Ok) (hb : ∀ f ∈ F.frames, f.all.flatten.length = b)
  (hh : ∀ f ∈ F.frames, f.lines.length = h)
include hF hb hh

theorem get_frames_inv (l : List Int) : ∀ {k : Nat} {p : MDGeomParser}, MDGeomParser.Inv F h b k p →
    (p.get_frames l).1 = (specGetMany (results F) k l).1 ∧
    MDGeomParser.Inv F h b (specGetMany (results F) k l).2 (p.get_frames l).2 := by
  induction l with
  | nil => intro k p hp; exact ⟨rfl, hp⟩
  | cons i l ih =>
    intro k p hp
    obtain ⟨h1, h2⟩ := MDGeomParser.get_frame_inv hF hb hh hp i
    rw [MDGeomParser.get_frames, specGetMany]
    change (p.get_frame i).1 = (specGet (results F) k i).1 at h1
    change MDGeomParser.Inv F h b (specGet (results F) k i).2 _ at h2
    generalize p.get_frame i = r at *
    generalize specGet (results F) k i = r' at *
    obtain ⟨r1, q⟩ := r
    obtain ⟨r1', c⟩ := r'
    simp only at h1 h2
    subst h1
    cases r1 with
    | error e => exact ⟨rfl, h2⟩
    | ok v =>
      obtain ⟨h3, h4⟩ := ih h2
      simp only
      generalize q.get_frames l = s at *
      generalize specGetMany (results F) c l = s' at *
      obtain ⟨s1, q⟩ := s
      obtain ⟨s1', c⟩ := s'
      simp only at h3 h4
      subst h3
      cases s1 with
      | error e => exact ⟨rfl, h4⟩
      | ok v => exact ⟨rfl, h4⟩

theorem genLoop_inv {k : Nat} {p : MDGeomParser} (hp : MDGeomParser.Inv F h b k p) (i : Int) :
    (p.genLoop i).1 = (specAdvance (results F) k i).1 ∧
    toIter (p.genLoop i).2.1 = (specAdvance (results F) k i).2.1 ∧
    MDGeomParser.Inv F h b (specAdvance (results F) k i).2.2 (p.genLoop i).2.2 := by
  have hlen : p.len = (results F).length := by rw [hp.len]; simp [results]
  rw [MDGeomParser.genLoop, specAdvance, hlen]
  by_cases hi : i < ((results F).length : Int)
  · rw [if_pos hi, if_neg (by omega)]
    obtain ⟨h1, h2⟩ := MDGeomParser.get_frame_inv hF hb hh hp i
    change (p.get_frame i).1 = (specGet (results F) k i).1 at h1
    change MDGeomParser.Inv F h b (specGet (results F) k i).2 _ at h2
    generalize p.get_frame i = r at *
    generalize specGet (results F) k i = r' at *
    obtain ⟨r1, q⟩ := r
    obtain ⟨r1', c⟩ := r'
    simp only at h1 h2
    subst h1
    cases r1 with
    | error e => cases e <;> exact ⟨rfl, rfl, h2⟩
    | ok v => exact ⟨rfl, rfl, h2⟩
  · rw [if_neg hi, if_pos (by omega)]
    exact ⟨rfl, rfl, hp⟩

/-- The relation between the modelled and the abstract reader. -/
def Rel (F : MdFile) (h b : Nat) (w : World) (st : MdState) : Prop :=
  MDGeomParser.Inv F h b st.cursor w.parser ∧ w.gens.map toIter = st.iters

theorem runOp_rel {w : World} {st : MdState} (hr : Rel F h b w st) (op : MdOp) :
    (runOp w op).1 = (specOp (results F) st op).1 ∧ Rel F h b (runOp w op).2 (specOp (results F) st op).2 := by
  obtain ⟨hp, hg⟩ := hr
  cases op with
  | getFrame i =>
    obtain ⟨h1, h2⟩ := MDGeomParser.get_frame_inv hF hb hh hp i
    exact ⟨congrArg MdSeen.frame h1, h2, hg⟩
  | readNext =>
    have hl : (results F).length = F.frames.length := by simp [results]
    rw [runOp, specOp, hl]
    by_cases hc : st.cursor < F.frames.length
    · obtain ⟨h1, h2⟩ := MDGeomParser.read_next_inv hF hb hh hp hc
      rw [if_pos hc]
      refine ⟨congrArg MdSeen.frame ?_, h2, hg⟩
      rw [h1, List.getD_eq_getElem?_getD, results, List.getElem?_map, List.getElem?_eq_getElem hc]; rfl
    · rw [if_neg hc]
      have e : st.cursor = F.frames.length := Nat.le_antisymm hp.le (by omega)
      rw [e] at hp
      obtain ⟨h1, h2⟩ := MDGeomParser.read_next_end hb hp
      exact ⟨congrArg MdSeen.frame h1, by rw [e]; exact h2, hg⟩
  | getMany l =>
    obtain ⟨h1, h2⟩ := get_frames_inv hF hb hh l hp
    exact ⟨congrArg MdSeen.frames h1, h2, hg⟩
  | slice a s c =>
    have hsl := slice_positions F.frames.length a s c
    have hl : (results F).length = F.frames.length := by simp [results]
    rw [runOp, specOp, MDGeomParser.get_slice, hp.len, hl]
    generalize MDGeomParser.sliceIndices a s c F.frames.length = x at *
    generalize slicePositions F.frames.length a s c = y at *
    cases y with
    | none =>
      cases x with
      | error e => simp only at hsl; cases hsl; exact ⟨rfl, hp, hg⟩
      | ok v => obtain ⟨v1, v2, v3⟩ := v; simp only at hsl; cases hsl
    | some ps =>
      cases x with
      | error e => simp only at hsl; cases hsl
      | ok v =>
        obtain ⟨v1, v2, v3⟩ := v
        simp only [Except.ok.injEq] at hsl
        simp only [hsl]
        obtain ⟨h1, h2⟩ := get_frames_inv hF hb hh (ps.map fun (x : Nat) => (x : Int)) hp
        exact ⟨congrArg MdSeen.frames h1, h2, hg⟩
  | newIter => exact ⟨rfl, hp, by simp [runOp, specOp, hg, toIter]⟩
  | send j trial =>
    unfold runOp specOp
    simp only
    rw [← hg, List.getElem?_map]
    cases hj : w.gens[j]? with
    | none => exact ⟨rfl, hp, hg⟩
    | some g =>
      simp only [Option.map_some]
      have hset : ∀ g' : MDGeomParser.Gen, (w.gens.set j g').map toIter = (w.gens.map toIter).set j (toIter g') :=
        fun g' => List.map_set
      have hsame : w.gens.set j g = w.gens := by
        rw [List.getElem?_eq_some_iff] at hj
        obtain ⟨hlt, rfl⟩ := hj
        exact List.set_getElem_self hlt
      cases g with
      | done => exact ⟨rfl, hp, by rw [MDGeomParser.send, hsame]; exact hg⟩
      | fresh =>
        cases trial with
        | some t => exact ⟨rfl, hp, by simp only [MDGeomParser.send]; rw [hsame]; exact hg⟩
        | none =>
          obtain ⟨h1, h2, h3⟩ := genLoop_inv hF hb hh hp 0
          refine ⟨congrArg MdSeen.frame h1, h3, ?_⟩
          simp only [MDGeomParser.send, toIter]
          rw [hset, h2]
      | «at» i =>
        cases trial with
        | none =>
          obtain ⟨h1, h2, h3⟩ := genLoop_inv hF hb hh hp (i + 1)
          refine ⟨congrArg MdSeen.frame h1, h3, ?_⟩
          simp only [MDGeomParser.send, toIter]
          rw [hset, h2]; rfl
        | some t =>
          obtain ⟨h1, h2, h3⟩ := genLoop_inv hF hb hh hp t
          refine ⟨congrArg MdSeen.frame h1, h3, ?_⟩
          simp only [MDGeomParser.send, toIter]
          rw [hset, h2]; rfl

theorem runOps_rel (ops : List MdOp) : ∀ {w : World} {st : MdState}, Rel F h b w st →
    (runOps w ops).1 = (specRun (results F) st ops).1 ∧
    Rel F h b (runOps w ops).2 (specRun (results F) st ops).2 := by
  induction ops with
  | nil => intro w st hr; exact ⟨rfl, hr⟩
  | cons op ops ih =>
    intro w st hr
    obtain ⟨h1, h2⟩ := runOp_rel hF hb hh hr op
    obtain ⟨h3, h4⟩ := ih h2
    refine ⟨?_, h4⟩
    rw [runOps, specRun]
    simp only [h1, h3]

end

/-- `next` of a generator from `__iter__`, with the reader it uses. -/
def iterNext (s : MDGeomParser.Gen × MDGeomParser) : PyM PyVal × (MDGeomParser.Gen × MDGeomParser) :=
  let r := s.2.send s.1 none
  (r.1, r.2.1, r.2.2)

theorem specGet_ok {F : MdFile} {vs : List PyVal} (hv : results F = vs.map .ok) (k j : Nat) (hj : j < vs.length) :
    specGet (results F) k (j : Int) = (.ok vs[j], j + 1) := by
  have hlen : (results F).length = vs.length := by rw [hv]; simp
  rw [specGet, frameAt, if_pos ⟨by omega, by rw [hlen]; omega⟩]
  simp only [Int.toNat_natCast]
  rw [hv, List.getD_eq_getElem?_getD, List.getElem?_map, List.getElem?_eq_getElem hj]
  rfl

theorem specGetMany_ok {F : MdFile} {vs : List PyVal} (hv : results F = vs.map .ok) (d : PyVal) (ps : List Nat) :
    ∀ k, (∀ x ∈ ps, x < vs.length) →
    (specGetMany (results F) k (ps.map fun (x : Nat) => (x : Int))).1 = .ok (ps.map fun x => vs.getD x d) := by
  induction ps with
  | nil => intro k _; rfl
  | cons x ps ih =>
    intro k hx
    have h1 := specGet_ok hv k x (hx x (by simp))
    have h2 := ih (x + 1) fun y hy => hx y (by simp [hy])
    rw [List.map_cons, specGetMany, h1]
    simp only
    generalize specGetMany (results F) (x + 1) _ = r at *
    obtain ⟨r1, r2⟩ := r
    simp only at h2
    subst h2
    simp only [List.map_cons]
    rw [List.getD_eq_getElem?_getD, List.getElem?_eq_getElem (hx x (by simp))]
    rfl

/-- The position a generator reads next. -/
def genPos : MDGeomParser.Gen → Option Int
  | .fresh => some 0
  | .at i => some (i + 1)
  | .done => none

theorem iter_listOf {F : MdFile} {h b : Nat} (hF : ∀ f ∈ F.frames, f.Ok)
    (hb : ∀ f ∈ F.frames, f.all.flatten.length = b) (hh : ∀ f ∈ F.frames, f.lines.length = h)
    {vs : List PyVal} (hv : results F = vs.map .ok) : ∀ (n i k : Nat) (g : MDGeomParser.Gen) (p : MDGeomParser),
    vs.length - i = n → genPos g = some (i : Int) → MDGeomParser.Inv F h b k p →
    ListOf iterNext (g, p) (vs.drop i) := by
  have hlen : (results F).length = vs.length := by rw [hv]; simp
  intro n
  induction n with
  | zero =>
    intro i k g p hn hg hp
    obtain ⟨h1, h2, h3⟩ := genLoop_inv hF hb hh hp i
    rw [specAdvance, if_pos (by rw [hlen]; omega)] at h1
    rw [List.drop_of_length_le (by omega), ListOf.nil_iff, iterNext]
    cases g with
    | fresh => simp only [genPos, Option.some.injEq] at hg; simp only [MDGeomParser.send]; rw [hg]; exact h1
    | done => cases hg
    | «at» j => simp only [genPos, Option.some.injEq] at hg; simp only [MDGeomParser.send]; rw [hg]; exact h1
  | succ n ih =>
    intro i k g p hn hg hp
    have hi : i < vs.length := by omega
    obtain ⟨h1, h2, h3⟩ := genLoop_inv hF hb hh hp i
    have hs := specGet_ok hv k i hi
    rw [specAdvance, if_neg (by rw [hlen]; omega), hs] at h1 h2 h3
    simp only at h1 h2 h3
    rw [List.drop_eq_getElem_cons hi, ListOf.cons_iff]
    have hg' : genPos (p.genLoop i).2.1 = some ((i + 1 : Nat) : Int) := by
      generalize (p.genLoop (i : Int)).2.1 = g' at h2
      cases g' with
      | fresh => cases h2
      | done => cases h2
      | «at» j => simp only [toIter, MdIter.last.injEq] at h2; subst h2; simp [genPos]
    have hsend : p.send g none = p.genLoop i := by
      cases g with
      | fresh => simp only [genPos, Option.some.injEq] at hg; simp only [MDGeomParser.send]; rw [hg]
      | done => cases hg
      | «at» j => simp only [genPos, Option.some.injEq] at hg; simp only [MDGeomParser.send]; rw [hg]
    refine ⟨_, ?_, ih (i + 1) (i + 1) _ _ (by omega) hg' h3⟩
    rw [iterNext]
    simp only [hsend]
    rw [h1]

theorem specGetMany_all (rs : List (PyM PyVal)) : ∀ (k i : Nat), i ≤ rs.length →
    (specGetMany rs k (((List.range' i (rs.length - i))).map fun (x : Nat) => (x : Int))).1 =
      (rs.drop i).mapM id := by
  intro k i hi
  generalize hn : rs.length - i = n
  induction n generalizing k i with
  | zero =>
    rw [List.drop_of_length_le (by omega)]; rfl
  | succ n ih =>
    have hlt : i < rs.length := by omega
    have h2 := ih (i + 1) (i + 1) (by omega) (by omega)
    rw [List.range'_succ, List.map_cons, specGetMany, specGet, frameAt, if_pos ⟨by omega, by omega⟩,
      List.drop_eq_getElem_cons hlt, List.mapM_cons]
    simp only [Int.toNat_natCast, List.getD_eq_getElem?_getD, List.getElem?_eq_getElem hlt, Option.getD_some, id]
    cases rs[i] with
    | error e => rfl
    | ok v =>
      simp only
      generalize specGetMany rs (i + 1) _ = r at *
      obtain ⟨r1, r2⟩ := r
      simp only at h2
      subst h2
      cases (rs.drop (i + 1)).mapM id <;> rfl

end Verif.Props

import Verif.Lemmas.Bytes
namespace Verif
open Spec

theorem BFile.read_eq (d pre b post : Bytes) (p n : Nat) (hd : d = pre ++ (b ++ post))
    (hp : p = pre.length) (hn : n = b.length) :
    BFile.read ⟨d, p⟩ n = (b, ⟨d, p + n⟩) := by
  subst hd hp hn; simp [BFile.read]

theorem BFile.seekCur_eq (d : Bytes) (p q : Nat) (o : Int) (h : (p : Int) + o = q) :
    BFile.seekCur ⟨d, p⟩ o = .ok ⟨d, q⟩ := by
  simp only [BFile.seekCur]
  rw [h]; simp

theorem BFile.seekCur_neg (d : Bytes) (p : Nat) (o : Int) (h : (p : Int) + o < 0) :
    BFile.seekCur ⟨d, p⟩ o = .error .osError := by
  simp [BFile.seekCur, h]

theorem encodeRec_length (r : Bytes) : (encodeRec r).length = r.length + 8 := by
  simp [encodeRec]; omega

theorem encodeFile_append (a b : List Bytes) : encodeFile (a ++ b) = encodeFile a ++ encodeFile b := by
  induction a with
  | nil => simp [encodeFile]
  | cons r a ih => simp [encodeFile, ih]

theorem marker_val (r : Bytes) (h : r.length < 2 ^ 32) : beVal (beBytes 4 r.length) = r.length := by
  rw [beVal_beBytes, Nat.mod_eq_of_lt]; simpa using h

theorem beBytes_four_ne_nil (n : Nat) : (beBytes 4 n).isEmpty = false := by
  simp [beBytes]

/-- Reading at the start of a record that is followed by anything. -/
theorem next_at (d pre r post : Bytes) (p : Nat) (hd : d = pre ++ (encodeRec r ++ post))
    (hp : p = pre.length) (hr : r.length < 2 ^ 32) :
    FReader.next ⟨d, p⟩ = (.ok r, ⟨d, p + (r.length + 8)⟩) := by
  have h1 := BFile.read_eq d pre (beBytes 4 r.length) (r ++ beBytes 4 r.length ++ post) p 4
    (by simp [hd, encodeRec]) hp (by simp)
  have h2 := BFile.read_eq d (pre ++ beBytes 4 r.length) r (beBytes 4 r.length ++ post) (p + 4)
    r.length (by simp [hd, encodeRec]) (by simp [hp]) rfl
  have h3 := BFile.read_eq d (pre ++ beBytes 4 r.length ++ r) (beBytes 4 r.length) post
    (p + 4 + r.length) 4 (by simp [hd, encodeRec]) (by simp [hp]; omega) (by simp)
  simp only [FReader.next, h1, beBytes_four_ne_nil, marker_val r hr, h2, h3]
  simp; omega

/-- Reading at or beyond the end. -/
theorem next_end (d : Bytes) (p : Nat) (hp : d.length ≤ p) :
    FReader.next ⟨d, p⟩ = (.error .stopIteration, ⟨d, p⟩) := by
  simp [FReader.next, BFile.read, List.drop_eq_nil_of_le hp]

theorem atRecord_split (rs : List Bytes) (i : Nat) (hi : i < rs.length) :
    encodeFile rs = encodeFile (rs.take i) ++ (encodeRec rs[i] ++ encodeFile (rs.drop (i + 1))) := by
  have : rs = rs.take i ++ (rs[i] :: rs.drop (i + 1)) := by simp
  conv => lhs; rw [this]
  rw [encodeFile_append]; rfl

theorem encodeFile_take_succ (rs : List Bytes) (i : Nat) (hi : i < rs.length) :
    (encodeFile (rs.take (i + 1))).length = (encodeFile (rs.take i)).length + (rs[i].length + 8) := by
  have : rs.take (i + 1) = rs.take i ++ [rs[i]] := by simp
  rw [this, encodeFile_append]
  simp [encodeFile, encodeRec_length]

theorem next_atRecord (rs : List Bytes) (h : Fits rs) (i : Nat) (hi : i < rs.length) :
    FReader.next (atRecord rs i) = (.ok rs[i], atRecord rs (i + 1)) := by
  have := next_at (encodeFile rs) (encodeFile (rs.take i)) rs[i] (encodeFile (rs.drop (i + 1)))
    _ (atRecord_split rs i hi) rfl (h _ (List.getElem_mem hi))
  rw [atRecord, this]
  simp [atRecord, encodeFile_take_succ rs i hi]

theorem next_atEnd (rs : List Bytes) (i : Nat) (hi : rs.length ≤ i) :
    FReader.next (atRecord rs i) = (.error .stopIteration, atRecord rs i) := by
  rw [atRecord]
  exact next_end _ _ (by simp [List.take_of_length_le hi])

theorem skipFwd_atRecord (rs : List Bytes) (h : Fits rs) (k i : Nat) (hi : i + k ≤ rs.length) :
    FReader.skipFwdLoop k (atRecord rs i) = (.ok (), atRecord rs (i + k)) := by
  induction k generalizing i with
  | zero => simp [FReader.skipFwdLoop]
  | succ k ih =>
    have hi' : i < rs.length := by omega
    have h1 := BFile.read_eq (encodeFile rs) (encodeFile (rs.take i)) (beBytes 4 rs[i].length)
      (rs[i] ++ beBytes 4 rs[i].length ++ encodeFile (rs.drop (i + 1))) _ 4
      (by rw [atRecord_split rs i hi']; simp [encodeRec]) rfl (by simp)
    have h2 : BFile.seekCur ⟨encodeFile rs, (encodeFile (rs.take i)).length + 4⟩
        ((rs[i].length : Int) + 4) = .ok (atRecord rs (i + 1)) := by
      rw [atRecord]
      apply BFile.seekCur_eq
      rw [encodeFile_take_succ rs i hi']; push_cast; omega
    rw [FReader.skipFwdLoop, atRecord, h1]
    simp only [marker_val _ (h _ (List.getElem_mem hi')), h2]
    rw [ih (i + 1) (by omega)]
    congr 2; omega

/-- The cursor in front of the trailing marker of record `i`. -/
def beforeTrailer (rs : List Bytes) (i : Nat) : BFile :=
  ⟨encodeFile rs, (encodeFile (rs.take (i + 1))).length - 4⟩

theorem read_trailer (rs : List Bytes) (i : Nat) (hi : i < rs.length) :
    (beforeTrailer rs i).read 4 = (beBytes 4 rs[i].length, atRecord rs (i + 1)) := by
  have hl := encodeFile_take_succ rs i hi
  have h1 := BFile.read_eq (encodeFile rs)
    (encodeFile (rs.take i) ++ beBytes 4 rs[i].length ++ rs[i]) (beBytes 4 rs[i].length)
    (encodeFile (rs.drop (i + 1))) ((encodeFile (rs.take (i + 1))).length - 4) 4
    (by rw [atRecord_split rs i hi]; simp [encodeRec])
    (by rw [hl]; simp; omega) (by simp)
  rw [beforeTrailer, h1, atRecord, Nat.sub_add_cancel (by omega)]

theorem skipBack_trailer (rs : List Bytes) (h : Fits rs) (k i : Nat) (hi : i < rs.length)
    (hk : k ≤ i) :
    FReader.skipBackLoop k (beforeTrailer rs i) = (.ok (), beforeTrailer rs (i - k)) := by
  induction k generalizing i with
  | zero => simp [FReader.skipBackLoop]
  | succ k ih =>
    have hl := encodeFile_take_succ rs i hi
    have hl' := encodeFile_take_succ rs (i - 1) (by omega)
    have e : i - 1 + 1 = i := by omega
    simp only [e] at hl'
    have h2 : BFile.seekCur (atRecord rs (i + 1)) (-(rs[i].length : Int) - 12)
        = .ok (beforeTrailer rs (i - 1)) := by
      rw [atRecord, beforeTrailer]
      apply BFile.seekCur_eq
      rw [e]; omega
    rw [FReader.skipBackLoop, read_trailer rs i hi]
    simp only [marker_val _ (h _ (List.getElem_mem hi)), h2]
    rw [ih (i - 1) (by omega) (by omega)]
    congr 2; omega

theorem skipBack_trailer_fail (rs : List Bytes) (h : Fits rs) (k i : Nat) (hi : i < rs.length)
    (hk : i < k) :
    FReader.skipBackLoop k (beforeTrailer rs i) = (.error .osError, atRecord rs 1) := by
  induction k generalizing i with
  | zero => omega
  | succ k ih =>
    have hl := encodeFile_take_succ rs i hi
    rw [FReader.skipBackLoop, read_trailer rs i hi]
    simp only [marker_val _ (h _ (List.getElem_mem hi))]
    rcases Nat.eq_zero_or_pos i with h0 | h0
    · subst h0
      have h2 : BFile.seekCur (atRecord rs 1) (-(rs[0].length : Int) - 12) = .error .osError := by
        rw [atRecord]
        apply BFile.seekCur_neg
        have : (encodeFile (rs.take 0)).length = 0 := by simp [encodeFile]
        simp only [Nat.zero_add] at hl
        omega
      simp only [Nat.zero_add, h2]
    · have hl' := encodeFile_take_succ rs (i - 1) (by omega)
      have e : i - 1 + 1 = i := by omega
      simp only [e] at hl'
      have h2 : BFile.seekCur (atRecord rs (i + 1)) (-(rs[i].length : Int) - 12)
          = .ok (beforeTrailer rs (i - 1)) := by
        rw [atRecord, beforeTrailer]
        apply BFile.seekCur_eq
        rw [e]; omega
      rw [h2]
      exact ih (i - 1) (by omega) (by omega)

theorem seek_to_trailer (rs : List Bytes) (i : Nat) (hi : i < rs.length) :
    BFile.seekCur (atRecord rs (i + 1)) (-4) = .ok (beforeTrailer rs i) := by
  have hl := encodeFile_take_succ rs i hi
  rw [atRecord, beforeTrailer]
  apply BFile.seekCur_eq
  omega

theorem skip_atRecord (rs : List Bytes) (h : Fits rs) (i : Nat) (n : Int)
    (hi : i ≤ rs.length) (h0 : 0 ≤ (i : Int) + n) (h1 : (i : Int) + n ≤ rs.length) :
    FReader.skip n (atRecord rs i) = (.ok (), atRecord rs ((i : Int) + n).toNat) := by
  rw [FReader.skip]
  split
  · subst n; simp
  · split
    · rename_i hn0 hn
      obtain ⟨j, rfl⟩ : ∃ j, i = j + 1 := ⟨i - 1, by omega⟩
      rw [seek_to_trailer rs j (by omega)]
      simp only
      rw [skipBack_trailer rs h _ j (by omega) (by omega)]
      simp only
      have hj : j - (n.natAbs - 1) < rs.length := by omega
      rw [read_trailer rs _ hj]
      simp only [marker_val _ (h _ (List.getElem_mem hj))]
      have hl := encodeFile_take_succ rs _ hj
      have h2 : BFile.seekCur (atRecord rs (j - (n.natAbs - 1) + 1))
          (-(rs[j - (n.natAbs - 1)].length : Int) - 8)
          = .ok (atRecord rs (j - (n.natAbs - 1))) := by
        rw [atRecord, atRecord]
        apply BFile.seekCur_eq
        omega
      rw [h2]
      simp only
      congr 2; omega
    · rw [skipFwd_atRecord rs h _ i (by omega)]
      congr 2; omega

theorem skip_tooFar (rs : List Bytes) (h : Fits rs) (i : Nat) (n : Int)
    (hi : i ≤ rs.length) (h0 : (i : Int) + n < 0) :
    FReader.skip n (atRecord rs i) = (.error .osError, atRecord rs (min i 1)) := by
  rw [FReader.skip, if_neg (by omega), if_pos (by omega)]
  rcases Nat.eq_zero_or_pos i with h1 | h1
  · subst h1
    have : BFile.seekCur (atRecord rs 0) (-4) = .error .osError := by
      rw [atRecord]; apply BFile.seekCur_neg; simp [encodeFile]
    rw [this]; rfl
  · obtain ⟨j, rfl⟩ : ∃ j, i = j + 1 := ⟨i - 1, by omega⟩
    rw [seek_to_trailer rs j (by omega)]
    simp only
    rw [skipBack_trailer_fail rs h _ j (by omega) (by omega)]
    have : min (j + 1) 1 = 1 := by omega
    rw [this]

end Verif

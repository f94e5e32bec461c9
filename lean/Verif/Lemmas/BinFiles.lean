import Verif.Lemmas.Unpack
import Verif.Lemmas.Dict
import Verif.Model.BinFiles
import Verif.Spec.BinFiles
namespace Verif
open Spec

/-- The cursor stands in front of the records `rest`. -/
def Cur (f : BFile) (rest : List Bytes) : Prop :=
  ∃ pre, Fits (pre ++ rest) ∧ f = atRecord (pre ++ rest) pre.length

theorem Cur.opened (rs : List Bytes) (h : Fits rs) : Cur (opened (encodeFile rs)) rs :=
  ⟨[], h, by simp [atRecord, Spec.opened, encodeFile]⟩

theorem Cur.next {f : BFile} {r : Bytes} {rest : List Bytes} (h : Cur f (r :: rest)) :
    ∃ f', FReader.next f = (.ok r, f') ∧ Cur f' rest := by
  obtain ⟨pre, hf, rfl⟩ := h
  have := next_atRecord _ hf pre.length (by simp)
  rw [this]
  refine ⟨_, by simp; rfl, pre ++ [r], ?_, ?_⟩ <;> simp
  exact hf

theorem Cur.next_eq {f : BFile} {r : Bytes} {rest : List Bytes} (h : Cur f (r :: rest)) :
    (FReader.next f).1 = .ok r ∧ Cur (FReader.next f).2 rest := by
  obtain ⟨f', h1, h2⟩ := h.next
  rw [h1]; exact ⟨rfl, h2⟩

theorem Cur.get {f : BFile} {r : Bytes} {rest : List Bytes} {t : BTyp} {v : PyVal}
    (h : Cur f (r :: rest)) (hv : parse_bytes r t = .ok v) :
    ∃ f', FReader.get t f = (.ok v, f') ∧ Cur f' rest := by
  obtain ⟨f', h1, h2⟩ := h.next
  exact ⟨f', by rw [FReader.get, h1]; simp [hv], h2⟩

/-- Records decode, one by one, to the values. -/
inductive Decodes : List (Key × BTyp) → List Bytes → List (Key × PyVal) → Prop
  | nil : Decodes [] [] []
  | cons {k t r v dt rs vs} : parse_bytes r t = .ok v → Decodes dt rs vs →
      Decodes ((k, t) :: dt) (r :: rs) ((k, v) :: vs)

theorem Cur.dict {f : BFile} {dt : List (Key × BTyp)} {rs rest : List Bytes} {vs}
    (hd : Decodes dt rs vs) (h : Cur f (rs ++ rest)) :
    ∃ f', FReader.get_dtype_dict dt f = (.ok vs, f') ∧ Cur f' rest := by
  induction hd generalizing f with
  | nil => exact ⟨f, rfl, h⟩
  | cons hv _ ih =>
    obtain ⟨f₁, h1, h2⟩ := h.next
    obtain ⟨f₂, h3, h4⟩ := ih h2
    exact ⟨f₂, by rw [FReader.get_dtype_dict, h1]; simp [hv, h3], h4⟩

theorem Cur.iter3 {f : BFile} {r₁ r₂ r₃ : Bytes} {t₁ t₂ t₃ : BTyp} {v₁ v₂ v₃ : PyVal}
    {rest : List Bytes} (h : Cur f (r₁ :: r₂ :: r₃ :: rest))
    (h1 : parse_bytes r₁ t₁ = .ok v₁) (h2 : parse_bytes r₂ t₂ = .ok v₂)
    (h3 : parse_bytes r₃ t₃ = .ok v₃) :
    ∃ f', FReader.get_dtype_iter [t₁, t₂, t₃] f = (.ok [v₁, v₂, v₃], f') ∧ Cur f' rest := by
  obtain ⟨f₁, e1, c1⟩ := h.get h1
  obtain ⟨f₂, e2, c2⟩ := c1.get h2
  obtain ⟨f₃, e3, c3⟩ := c2.get h3
  exact ⟨f₃, by simp [FReader.get_dtype_iter, e1, e2, e3], c3⟩

theorem Cur.cycle_dict {f : BFile} {dt : List (Key × BTyp)} {rest : List Bytes} (l : List β)
    (recs : β → List Bytes) (vals : β → List (Key × PyVal))
    (hd : ∀ b ∈ l, Decodes dt (recs b) (vals b)) (h : Cur f (l.flatMap recs ++ rest)) :
    ∃ f', FReader.get_dtype_cycle_dict dt l.length f = (.ok (l.map vals), f') ∧ Cur f' rest := by
  induction l generalizing f with
  | nil => exact ⟨f, rfl, by simpa using h⟩
  | cons b l ih =>
    rw [List.flatMap_cons, List.append_assoc] at h
    obtain ⟨f₁, h1, h2⟩ := Cur.dict (hd b (by simp)) h
    obtain ⟨f₂, h3, h4⟩ := ih (fun b hb => hd b (by simp [hb])) h2
    exact ⟨f₂, by rw [List.length_cons, FReader.get_dtype_cycle_dict, h1]; simp [h3], h4⟩

theorem Cur.cycle3 {f : BFile} {t₁ t₂ t₃ : BTyp} {rest : List Bytes} (l : List β)
    (r₁ r₂ r₃ : β → Bytes) (v₁ v₂ v₃ : β → PyVal)
    (hd : ∀ b ∈ l, parse_bytes (r₁ b) t₁ = .ok (v₁ b) ∧ parse_bytes (r₂ b) t₂ = .ok (v₂ b) ∧
      parse_bytes (r₃ b) t₃ = .ok (v₃ b))
    (h : Cur f (l.flatMap (fun b => [r₁ b, r₂ b, r₃ b]) ++ rest)) :
    ∃ f', FReader.get_dtype_cycle_tup [t₁, t₂, t₃] l.length f
      = (.ok (l.map fun b => [v₁ b, v₂ b, v₃ b]), f') ∧ Cur f' rest := by
  induction l generalizing f with
  | nil => exact ⟨f, rfl, by simpa using h⟩
  | cons b l ih =>
    obtain ⟨a1, a2, a3⟩ := hd b (by simp)
    simp only [List.flatMap_cons, List.cons_append, List.nil_append] at h
    obtain ⟨f₁, h1, h2⟩ := Cur.iter3 h a1 a2 a3
    obtain ⟨f₂, h3, h4⟩ := ih (fun b hb => hd b (by simp [hb])) h2
    exact ⟨f₂, by rw [List.length_cons, FReader.get_dtype_cycle_tup, h1]; simp [h3], h4⟩

theorem Cur.drain {f : BFile} {rest : List Bytes} (h : Cur f rest) (fuel : Nat)
    (hf : rest.length < fuel) : FReader.drain fuel f = rest := by
  induction rest generalizing f fuel with
  | nil =>
    obtain ⟨pre, hfit, rfl⟩ := h
    cases fuel with
    | zero => omega
    | succ fuel => rw [FReader.drain, next_atEnd _ _ (by simp)]
  | cons r rest ih =>
    cases fuel with
    | zero => omega
    | succ fuel =>
      obtain ⟨f', h1, h2⟩ := h.next
      rw [FReader.drain, h1]
      simp only
      rw [ih h2 fuel (by simpa using hf)]

theorem encodeFile_length_ge (rs : List Bytes) : rs.length ≤ (encodeFile rs).length := by
  induction rs with
  | nil => simp
  | cons r rs ih => simp [encodeFile, encodeRec_length]; omega

theorem Cur.toList {f : BFile} {rest : List Bytes} (h : Cur f rest) : FReader.toList f = rest := by
  have h' := h
  obtain ⟨pre, hfit, rfl⟩ := h
  refine h'.drain _ ?_
  have := encodeFile_length_ge (pre ++ rest)
  simp [atRecord] at this ⊢
  omega

/-! ### decoding of the encodings -/

theorem parse_int_one (i : Int) (h : I32 i) : parse_bytes (encInt32 i) (.one .int) = .ok (.int i) := by
  have h1 := unpack_flatMap 4 (by decide) encInt32 decInt32 encInt32_length [i]
  simp only [List.flatMap_cons, List.flatMap_nil, List.append_nil, List.map_cons, List.map_nil,
    decInt32_enc i h.1 h.2] at h1
  simp only [parse_bytes, byteParser, parse_int_bytes, h1]
  rfl

theorem parse_int_many (l : List Int) (h : ∀ i ∈ l, I32 i) :
    parse_bytes (l.flatMap encInt32) (.many .int) = .ok (.tuple (l.map .int)) := by
  have : l.map (fun i => decInt32 (encInt32 i)) = l := by
    conv => rhs; rw [← List.map_id l]
    exact List.map_congr_left fun i hi => decInt32_enc i (h i hi).1 (h i hi).2
  simp only [parse_bytes, byteParser, parse_int_bytes,
    unpack_flatMap 4 (by decide) encInt32 decInt32 encInt32_length, this]
  rfl

theorem parse_float_many (l : List F64) :
    parse_bytes (encFloats l) (.many .float) = .ok (floatsVal l) := by
  simp only [parse_bytes, byteParser, parse_float_bytes, encFloats,
    unpack_flatMap 8 (by decide) encF64 decF64 encF64_length, decF64_enc, List.map_id']
  rfl

theorem parse_float_one (x : F64) : parse_bytes (encF64 x) (.one .float) = .ok (.float x) := by
  have h1 := unpack_flatMap 8 (by decide) encF64 decF64 encF64_length [x]
  simp only [List.flatMap_cons, List.flatMap_nil, List.append_nil, List.map_cons, List.map_nil,
    decF64_enc] at h1
  simp only [parse_bytes, byteParser, parse_float_bytes, h1]
  rfl

theorem parse_complex_many (l : Row) :
    parse_bytes (encComplex l) (.many .complex) = .ok (rowVal l) := by
  have hflat : encComplex l = (l.flatMap fun z => [z.1, z.2]).flatMap encF64 := by
    rw [encComplex]
    induction l with
    | nil => rfl
    | cons z l ih => simp [ih]
  simp only [parse_bytes, byteParser, parse_complex_bytes, hflat,
    unpack_flatMap 8 (by decide) encF64 decF64 encF64_length, decF64_enc, List.map_id', Except.map,
    (everyOther_flat l).1, (everyOther_flat l).2]
  show Except.ok _ = _
  rw [rowVal]
  congr 2
  induction l with
  | nil => rfl
  | cons z l ih => simp

theorem parse_text_one (s : Bytes) (h : ∀ b ∈ s, b.val < 128) :
    parse_bytes s (.one .str) = .ok (.str (s.map (·.val))) := by
  have : s.all (fun b => decide (b.val < 128)) = true := by simpa using h
  simp only [parse_bytes, byteParser, parse_str_bytes, this]
  rfl

/-! ### the ESP loop -/

theorem espIndex_row (i j : Int) (hi : I32 i) (hj : I32 j) (rest : Bytes) :
    espIndex (encInt32 i ++ encInt32 j ++ rest) = .ok i ∧
    (encInt32 i ++ encInt32 j ++ rest).drop 8 = rest := by
  have hl : (encInt32 i ++ encInt32 j).length = 8 := by simp [encInt32_length]
  have h1 : (encInt32 i ++ encInt32 j ++ rest).take 8 = [i, j].flatMap encInt32 := by
    rw [List.take_append_of_le_length (by omega), List.take_of_length_le (by omega)]; simp
  refine ⟨?_, ?_⟩
  · rw [espIndex, h1, parse_int_many [i, j] (by simp [hi, hj])]
    rfl
  · rw [List.drop_append, List.drop_of_length_le (by omega)]; simp [hl]

/-- Rows of the plane already being read are appended to it. -/
theorem espLoop_same (nx ny : Nat) (p : Plane) (hnx : I32 nx) (hny : I32 (ny + p.length))
    (curr esp : List PyVal) (rest : List Bytes) :
    espLoop (some nx) curr esp (planeRecords nx ny p ++ rest)
      = espLoop (some nx) (curr ++ p.map rowVal) esp rest := by
  induction p generalizing ny curr with
  | nil => simp [planeRecords]
  | cons r p ih =>
    have hj : I32 ny := by simp [I32] at hny ⊢; omega
    obtain ⟨h1, h2⟩ := espIndex_row nx ny hnx hj (encComplex r)
    rw [planeRecords, List.cons_append, espLoop, h1, h2]
    simp only [bne_self_eq_false, Bool.false_and, parse_complex_many]
    have := ih (ny + 1) (by simp [I32] at hny ⊢; omega) (curr ++ [rowVal r])
    simp only [Bool.false_eq_true, if_false]
    rw [this]; simp

/-- A plane with a new index closes the previous one. -/
theorem espLoop_new (prev : Option Int) (nx : Nat) (p : Plane) (hp : p ≠ []) (hnx : I32 nx)
    (hny : I32 (1 + p.length)) (hprev : prev ≠ some (nx : Int))
    (curr esp : List PyVal) (rest : List Bytes) :
    espLoop prev curr esp (planeRecords nx 1 p ++ rest)
      = espLoop (some nx) (p.map rowVal) (if curr = [] then esp else esp ++ [.list curr]) rest := by
  cases p with
  | nil => exact absurd rfl hp
  | cons r p =>
    have hj : I32 (1 : Nat) := by simp [I32]
    obtain ⟨h1, h2⟩ := espIndex_row nx (1 : Nat) hnx hj (encComplex r)
    rw [planeRecords, List.cons_append, espLoop, h1, h2]
    have hb : (prev != some (nx : Int)) = true := by simpa using hprev
    simp only [hb, Bool.true_and, parse_complex_many]
    cases curr with
    | nil =>
      simp only [List.isEmpty_nil, Bool.not_true, Bool.false_eq_true, if_false, List.nil_append,
        if_true]
      rw [espLoop_same nx 2 p hnx (by simp [I32] at hny ⊢; omega)]
      simp
    | cons c cs =>
      simp only [List.isEmpty_cons, Bool.not_false, if_true, List.nil_append]
      rw [espLoop_same nx 2 p hnx (by simp [I32] at hny ⊢; omega)]
      simp

/-- Planes `nx, nx+1, …` are each collected. -/
theorem espLoop_grid (g : Grid) (hg : ∀ p ∈ g, p ≠ [] ∧ I32 (1 + p.length)) (prev : Option Int)
    (nx : Nat) (hnx : I32 (nx + g.length))
    (curr esp : List PyVal) (rest : List Bytes) (p : Plane) (hp : p ≠ [])
    (hpl : I32 (1 + p.length)) (hprev' : prev ≠ some (nx : Int)) :
    espLoop prev curr esp (gridRecords nx (p :: g) ++ rest)
      = espLoop (some ((nx + g.length : Nat) : Int)) ((p :: g).getLast (by simp) |>.map rowVal)
          ((if curr = [] then esp else esp ++ [.list curr]) ++ gridVal ((p :: g).dropLast)) rest := by
  induction g generalizing prev nx curr esp p with
  | nil =>
    rw [gridRecords, gridRecords, List.append_nil, espLoop_new prev nx p hp (by simpa using hnx) hpl hprev']
    simp [gridVal]
  | cons q g ih =>
    rw [gridRecords, List.append_assoc,
      espLoop_new prev nx p hp (by simp [I32] at hnx ⊢; omega) hpl hprev']
    have hq := hg q (by simp)
    rw [ih (fun p hp => hg p (by simp [hp])) (some nx) (nx + 1)
      (by simp [I32] at hnx ⊢; omega) _ _ q hq.1 hq.2 (by simp; omega)]
    have hne : p.map rowVal ≠ [] := by simpa using hp
    rw [if_neg hne]
    have e : nx + 1 + g.length = nx + (q :: g).length := by simp; omega
    rw [e]
    simp [gridVal]

end Verif

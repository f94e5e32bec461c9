import Verif.Lemmas.Unpack
/-
Properties C01–C06: the Fortran unformatted reader.
-/
namespace Verif.Props
open Verif Verif.Spec

/-! ### C01 -/

/-- C01.  For every list of records, `list(FortranBinaryReader(file))` is that list. -/
theorem C01_records_roundtrip (rs : List Bytes) (h : Fits rs) :
    ListOf FReader.next (opened (encodeFile rs)) rs := by
  have key : ∀ k i, i + k = rs.length →
      Yields FReader.next (atRecord rs i) (rs.drop i) (atRecord rs rs.length) := by
    intro k
    induction k with
    | zero =>
      intro i hi
      have : i = rs.length := by omega
      subst this
      rw [List.drop_of_length_le (Nat.le_refl _)]
      exact .nil _
    | succ k ih =>
      intro i hi
      have hi' : i < rs.length := by omega
      rw [List.drop_eq_getElem_cons hi']
      exact .cons _ _ _ _ _ (next_atRecord rs h i hi') (ih (i + 1) (by omega))
  refine ⟨atRecord rs rs.length, ?_, ?_⟩
  · have := key rs.length 0 (by omega)
    simpa [atRecord, opened, encodeFile] using this
  · rw [next_atEnd rs _ (Nat.le_refl _)]

/-- Hypotheses of C01 are met by records of different sizes, one empty, one looking like a
marker. -/
example : Fits [[], [0, 0, 0, 4], [1, 2, 3, 4, 5]] := by simp [Fits]

/-! ### C02 -/

/-- Perform one navigation command through the reader's API. -/
def doNav (op : NavOp) (f : BFile) : PyM (Option Bytes) × BFile :=
  match op with
  | .next => ((FReader.next f).1.map some, (FReader.next f).2)
  | .skip n => ((FReader.skip n f).1.map fun _ => none, (FReader.skip n f).2)
  | .rewind n => ((FReader.rewind n f).1.map fun _ => none, (FReader.rewind n f).2)

/-- Perform a history of commands, collecting what each one returns. -/
def runNav (f : BFile) : List NavOp → List (PyM (Option Bytes)) × BFile
  | [] => ([], f)
  | op :: ops => ((doNav op f).1 :: (runNav (doNav op f).2 ops).1, (runNav (doNav op f).2 ops).2)

/-- What a command must return at record index `i`. -/
def navOut (rs : List Bytes) (i : Nat) : NavOp → PyM (Option Bytes)
  | .next => match rs[i]? with
    | some r => .ok (some r)
    | none => .error .stopIteration
  | _ => .ok none

/-- Expected results of a history from index `i`, and the index it ends at; `none` if some command
would leave the file. -/
def navSpec (rs : List Bytes) (i : Nat) : List NavOp → Option (List (PyM (Option Bytes)) × Nat)
  | [] => some ([], i)
  | op :: ops => do
    let j ← navTarget rs.length i op
    let (out, k) ← navSpec rs j ops
    return (navOut rs i op :: out, k)

/-- C02.  Any in-range history of `next`/`skip`/`rewind` returns what an index into the list of
records would return, and leaves the cursor in front of the record at that index. -/
theorem C02_navigation (rs : List Bytes) (h : Fits rs) (ops : List NavOp) (i j : Nat)
    (hi : i ≤ rs.length) (out : List (PyM (Option Bytes)))
    (hs : navSpec rs i ops = some (out, j)) :
    runNav (atRecord rs i) ops = (out, atRecord rs j) := by
  induction ops generalizing i out with
  | nil => simp [navSpec] at hs; simp [runNav, hs]
  | cons op ops ih =>
    simp only [navSpec, Option.bind_eq_bind, Option.bind_eq_some_iff, Option.pure_def,
      Option.some.injEq] at hs
    obtain ⟨t, ht, ⟨o, k⟩, hok, heq⟩ := hs
    simp only [Prod.mk.injEq] at heq
    obtain ⟨rfl, rfl⟩ := heq
    have hstep : doNav op (atRecord rs i) = (navOut rs i op, atRecord rs t) ∧ t ≤ rs.length := by
      cases op with
      | next =>
        simp only [navTarget, Option.some.injEq] at ht
        by_cases hlt : i < rs.length
        · rw [if_pos hlt] at ht
          subst ht
          simp [doNav, next_atRecord rs h i hlt, navOut, List.getElem?_eq_getElem hlt, Except.map]
          omega
        · rw [if_neg hlt] at ht
          subst ht
          simp [doNav, next_atEnd rs i (by omega), navOut,
            List.getElem?_eq_none (by omega : rs.length ≤ i), Except.map, hi]
      | skip n =>
        simp only [navTarget] at ht
        split at ht <;> simp at ht
        subst ht
        rename_i hc
        rw [doNav, skip_atRecord rs h i n hi hc.1 hc.2]
        refine ⟨by simp [navOut, Except.map], by omega⟩
      | rewind n =>
        simp only [navTarget] at ht
        split at ht <;> simp at ht
        subst ht
        rename_i hc
        rw [doNav, FReader.rewind, skip_atRecord rs h i (-n) hi (by omega) (by omega)]
        refine ⟨by simp [navOut, Except.map]; congr 2, by omega⟩
    simp only [runNav, hstep.1, ih t hstep.2 o hok]

/-- C02, start: a freshly opened file is in front of record 0. -/
theorem C02_opened (rs : List Bytes) : opened (encodeFile rs) = atRecord rs 0 := by
  simp [opened, atRecord, encodeFile]

/-- C02, guard: rewinding past the beginning is refused with `OSError` and leaves the reader on a
record boundary (record 1, or 0 if it was there). -/
theorem C02_rewind_too_far (rs : List Bytes) (h : Fits rs) (i : Nat) (hi : i ≤ rs.length) (n : Int)
    (hn : (i : Int) < n) :
    FReader.rewind n (atRecord rs i) = (.error .osError, atRecord rs (min i 1)) := by
  rw [FReader.rewind, skip_tooFar rs h i (-n) hi (by omega)]

/-- A history with reads, a multi-record rewind over records of different sizes and a skip is in
range. -/
example : navSpec [[1], [2, 3], [4, 5, 6]] 0 [.next, .next, .rewind 2, .skip 2, .next, .next] =
    some ([.ok (some [1]), .ok (some [2, 3]), .ok none, .ok none, .ok (some [4, 5, 6]),
      .error .stopIteration], 3) := by decide

example : Fits [[1], [2, 3], [4, 5, 6]] := by simp [Fits]

/-! ### C03 -/

/-- Truncation inside (or before) one record: the reader yields at most one prefix of it. -/
theorem next_truncated (pre r t : Bytes) (hr : r.length < 2 ^ 32) (k : Nat)
    (hk : k < (encodeRec r).length) (ht : t = (encodeRec r).take k) :
    (k = 0 ∧ t = []) ∨
    ∃ p, p <+: r ∧ FReader.next ⟨pre ++ t, pre.length⟩ =
      (.ok p, ⟨pre ++ t, (pre ++ t).length⟩) := by
  have hlen : t.length = k := by rw [ht, List.length_take]; omega
  rcases Nat.eq_zero_or_pos k with h0 | h0
  · left; subst h0; simpa using hlen
  right
  rw [encodeRec_length] at hk
  by_cases h4 : k < 4
  · -- cut inside the leading marker
    refine ⟨[], List.nil_prefix, ?_⟩
    have h1 := BFile.read_eq (pre ++ t) pre t [] pre.length t.length (by simp) rfl rfl
    have hread4 : BFile.read ⟨pre ++ t, pre.length⟩ 4 = (t, ⟨pre ++ t, pre.length + t.length⟩) := by
      simp only [BFile.read, List.drop_left]
      rw [List.take_of_length_le (by omega)]
    have hne : t.isEmpty = false := by
      cases t with
      | nil => simp at hlen; omega
      | cons => rfl
    have hend : ∀ n, BFile.read ⟨pre ++ t, pre.length + t.length⟩ n
        = ([], ⟨pre ++ t, pre.length + t.length⟩) := by
      intro n
      simp [BFile.read, List.drop_of_length_le]
    simp only [FReader.next, hread4, hne, hend]
    simp
  · -- marker complete: the data read is a prefix of `r`
    have htm : t = beBytes 4 r.length ++ (r ++ beBytes 4 r.length).take (k - 4) := by
      rw [ht, encodeRec, List.append_assoc, List.take_append]
      simp only [beBytes_length]
      rw [List.take_of_length_le (by simp; omega)]
    have h1 := BFile.read_eq (pre ++ t) pre (beBytes 4 r.length)
      ((r ++ beBytes 4 r.length).take (k - 4)) pre.length 4 (by rw [htm]) rfl (by simp)
    refine ⟨r.take (k - 4), List.take_prefix _ _, ?_⟩
    have hdrop : List.drop (pre.length + 4) (pre ++ t) = (r ++ beBytes 4 r.length).take (k - 4) := by
      rw [htm, ← List.append_assoc, List.drop_append_of_le_length (by simp)]
      rw [List.drop_of_length_le (by simp)]; simp
    have h2 : BFile.read ⟨pre ++ t, pre.length + 4⟩ r.length =
        (r.take (k - 4), ⟨pre ++ t, pre.length + 4 + (r.take (k - 4)).length⟩) := by
      simp only [BFile.read, hdrop]
      have : List.take r.length ((r ++ beBytes 4 r.length).take (k - 4)) = r.take (k - 4) := by
        rw [List.take_take, Nat.min_comm, ← List.take_take]
        simp
      rw [this]
    have h3 : (BFile.read ⟨pre ++ t, pre.length + 4 + (r.take (k - 4)).length⟩ 4).2
        = ⟨pre ++ t, (pre ++ t).length⟩ := by
      simp only [BFile.read, List.length_take, List.length_drop, List.length_append, hlen]
      congr 1; omega
    simp only [FReader.next, h1, beBytes_four_ne_nil, marker_val r hr, h2, h3]
    simp

/-- C03.  Cut a well-formed file after any `k` bytes.  With `m` the number of records completely
inside the first `k` bytes, `list(reader)` is those `m` records followed by at most one item, a
prefix of the next record; no other exception occurs. -/
theorem C03_truncation (rs : List Bytes) (h : Fits rs) (k : Nat) (hk : k ≤ (encodeFile rs).length) :
    ∃ m tail, m ≤ rs.length ∧ (encodeFile (rs.take m)).length ≤ k ∧
      (m < rs.length → k < (encodeFile (rs.take (m + 1))).length) ∧
      tail.length ≤ 1 ∧ (∀ t ∈ tail, ∃ r, rs[m]? = some r ∧ t <+: r) ∧
      ListOf FReader.next (opened ((encodeFile rs).take k)) (rs.take m ++ tail) := by
  suffices H : ∀ pre : Bytes, ∃ m tail, m ≤ rs.length ∧ (encodeFile (rs.take m)).length ≤ k ∧
      (m < rs.length → k < (encodeFile (rs.take (m + 1))).length) ∧
      tail.length ≤ 1 ∧ (∀ t ∈ tail, ∃ r, rs[m]? = some r ∧ t <+: r) ∧
      ListOf FReader.next ⟨pre ++ (encodeFile rs).take k, pre.length⟩ (rs.take m ++ tail) from H []
  induction rs generalizing k with
  | nil =>
    intro pre
    refine ⟨0, [], by simp, by simp [encodeFile], by simp, by simp, by simp, ?_⟩
    exact ⟨_, .nil _, by rw [next_end _ _ (by simp [encodeFile])]⟩
  | cons r rs ih =>
    intro pre
    have hr : r.length < 2 ^ 32 := h r (by simp)
    have hrs : Fits rs := fun x hx => h x (by simp [hx])
    by_cases hc : k < (encodeRec r).length
    · refine ?_
      have htk : (encodeFile (r :: rs)).take k = (encodeRec r).take k := by
        rw [encodeFile, List.take_append_of_le_length (by omega)]
      rcases next_truncated pre r _ hr k hc rfl with ⟨h0, hnil⟩ | ⟨p, hp, hnext⟩
      · refine ⟨0, [], by simp, by simp [encodeFile], ?_, by simp, by simp, ?_⟩
        · intro _; simpa [encodeFile] using hc
        · rw [htk, hnil]
          exact ⟨_, .nil _, by rw [next_end _ _ (by simp)]⟩
      · refine ⟨0, [p], by simp, by simp [encodeFile], ?_, by simp, ?_, ?_⟩
        · intro _; simpa [encodeFile] using hc
        · intro t ht; simp at ht; subst ht; exact ⟨r, by simp, hp⟩
        · rw [htk]
          refine ⟨_, .cons _ _ _ _ _ hnext (.nil _), ?_⟩
          rw [next_end _ _ (Nat.le_refl _)]
    · have hk' : k - (encodeRec r).length ≤ (encodeFile rs).length := by
        rw [encodeFile, List.length_append] at hk; omega
      obtain ⟨m, tail, h1, h2, h3, h4, h5, s', h6, h7⟩ :=
        ih hrs (k - (encodeRec r).length) hk' (pre ++ encodeRec r)
      refine ⟨m + 1, tail, by simpa using h1, ?_, ?_, h4, by simpa using h5, ?_⟩
      · simp only [List.take_succ_cons, encodeFile, List.length_append]; omega
      · intro hm
        have := h3 (by simpa using hm)
        simp only [List.take_succ_cons, encodeFile, List.length_append]; omega
      · have hdat : pre ++ (encodeFile (r :: rs)).take k
            = pre ++ encodeRec r ++ (encodeFile rs).take (k - (encodeRec r).length) := by
          rw [encodeFile, List.take_append, List.take_of_length_le (by omega), List.append_assoc]
        have hn := next_at (pre ++ (encodeFile (r :: rs)).take k) pre r
          ((encodeFile rs).take (k - (encodeRec r).length)) pre.length
          (by rw [hdat, List.append_assoc]) rfl hr
        refine ⟨s', .cons _ _ _ _ _ hn ?_, h7⟩
        rw [hdat]
        have e : pre.length + (r.length + 8) = (pre ++ encodeRec r).length := by
          rw [List.length_append, encodeRec_length]
        rw [e]; exact h6

/-- A cut in the middle of the second of three records. -/
example : Fits [[1, 2], [3, 4, 5], [6]] ∧ 17 ≤ (encodeFile [[1, 2], [3, 4, 5], [6]]).length := by
  constructor
  · simp [Fits]
  · decide

/-! ### C04 -/

/-- C04, integers: a record holding any signed 32-bit integers decodes to exactly those. -/
theorem C04_ints (l : List Int) (h : ∀ i ∈ l, -2 ^ 31 ≤ i ∧ i < 2 ^ 31) :
    parse_bytes (l.flatMap encInt32) (.many .int) = .ok (.tuple (l.map .int)) := by
  have : l.map (fun i => decInt32 (encInt32 i)) = l := by
    conv => rhs; rw [← List.map_id l]
    exact List.map_congr_left fun i hi => decInt32_enc i (h i hi).1 (h i hi).2
  simp only [parse_bytes, byteParser, parse_int_bytes,
    unpack_flatMap 4 (by decide) encInt32 decInt32 encInt32_length, this]
  rfl

/-- C04, logicals: non-zero is `True`. -/
theorem C04_bools (l : List Int) (h : ∀ i ∈ l, -2 ^ 31 ≤ i ∧ i < 2 ^ 31) :
    parse_bytes (l.flatMap encInt32) (.many .bool)
      = .ok (.tuple (l.map fun i => .bool (decide (i ≠ 0)))) := by
  have : l.map (fun i => decInt32 (encInt32 i)) = l := by
    conv => rhs; rw [← List.map_id l]
    exact List.map_congr_left fun i hi => decInt32_enc i (h i hi).1 (h i hi).2
  simp only [parse_bytes, byteParser, parse_bool_bytes,
    unpack_flatMap 4 (by decide) encInt32 decInt32 encInt32_length, this, Except.map]
  show Except.ok _ = _
  congr 2
  apply List.map_congr_left
  intro i _
  by_cases hi : i = 0 <;> simp [hi]

/-- C04, doubles: bit patterns are preserved. -/
theorem C04_floats (l : List F64) :
    parse_bytes (l.flatMap encF64) (.many .float) = .ok (.tuple (l.map .float)) := by
  simp only [parse_bytes, byteParser, parse_float_bytes,
    unpack_flatMap 8 (by decide) encF64 decF64 encF64_length, decF64_enc, List.map_id']
  rfl

/-- C04, complex numbers: stored as (real, imaginary) pairs. -/
theorem C04_complex (l : List (F64 × F64)) :
    parse_bytes (l.flatMap fun z => encF64 z.1 ++ encF64 z.2) (.many .complex)
      = .ok (.tuple (l.map fun z => .complex z.1 z.2)) := by
  have hflat : (l.flatMap fun z => encF64 z.1 ++ encF64 z.2)
      = (l.flatMap fun z => [z.1, z.2]).flatMap encF64 := by
    induction l with
    | nil => rfl
    | cons z l ih => simp [ih]
  simp only [parse_bytes, byteParser, parse_complex_bytes, hflat,
    unpack_flatMap 8 (by decide) encF64 decF64 encF64_length, decF64_enc, List.map_id', Except.map,
    (everyOther_flat l).1, (everyOther_flat l).2]
  show Except.ok _ = _
  congr 2
  induction l with
  | nil => rfl
  | cons z l ih => simp

/-- C04, text. -/
theorem C04_text (s : Bytes) (h : ∀ b ∈ s, b.val < 128) :
    parse_bytes s (.one .str) = .ok (.str (s.map (·.val))) := by
  have : s.all (fun b => decide (b.val < 128)) = true := by simpa using h
  simp only [parse_bytes, byteParser, parse_str_bytes, this]
  rfl

/-- C04, scalars: a scalar request returns the value exactly when there is one. -/
theorem C04_scalar (t : Ty) (b : Bytes) (v : PyVal) :
    parse_bytes b (.one t) = .ok v ↔ parse_bytes b (.many t) = .ok (.tuple [v]) := by
  simp only [parse_bytes]
  cases byteParser t b with
  | error e => constructor <;> intro h <;> cases h
  | ok l =>
    show get_only l = _ ↔ Except.ok (PyVal.tuple l) = _
    match l with
    | [] => simp [get_only]
    | [a] => simp [get_only]
    | a :: b :: l => simp [get_only]

example : ∀ i ∈ [(-1 : Int), 2 ^ 31 - 1, -2 ^ 31, 0], -2 ^ 31 ≤ i ∧ i < 2 ^ 31 := by decide
example : ∀ b ∈ ([72, 105] : Bytes), b.val < 128 := by decide +kernel

/-! ### C05 -/

/-- C05.  Integer and logical payloads must be a multiple of 4 bytes, doubles of 8; else
`struct.error`. -/
theorem C05_bad_length (b : Bytes) :
    (b.length % 4 ≠ 0 → parse_bytes b (.many .int) = .error .structError ∧
      parse_bytes b (.one .int) = .error .structError ∧
      parse_bytes b (.many .bool) = .error .structError ∧
      parse_bytes b (.one .bool) = .error .structError) ∧
    (b.length % 8 ≠ 0 → parse_bytes b (.many .float) = .error .structError ∧
      parse_bytes b (.one .float) = .error .structError) := by
  refine ⟨fun h => ?_, fun h => ?_⟩
  · simp only [parse_bytes, byteParser, parse_int_bytes, parse_bool_bytes, unpack_bad 4 _ b h]
    exact ⟨rfl, rfl, rfl, rfl⟩
  · simp only [parse_bytes, byteParser, parse_float_bytes, unpack_bad 8 _ b h]
    exact ⟨rfl, rfl⟩

/-- C05.  A scalar numeric request on a payload that does not hold exactly one element is a
`ValueError`. -/
theorem C05_scalar_count (b : Bytes) :
    (b.length % 4 = 0 → b.length ≠ 4 → parse_bytes b (.one .int) = .error .valueError) ∧
    (b.length % 8 = 0 → b.length ≠ 8 → parse_bytes b (.one .float) = .error .valueError) := by
  have key : ∀ l : List PyVal, l.length ≠ 1 → get_only l = .error .valueError := by
    intro l hl
    match l with
    | [] => rfl
    | [a] => simp at hl
    | a :: b :: l => rfl
  refine ⟨fun h hne => ?_, fun h hne => ?_⟩
  · obtain ⟨l, hl, hlen⟩ := unpack_good 4 decInt32 b h
    simp only [parse_bytes, byteParser, parse_int_bytes, hl]
    exact key _ (by simp; omega)
  · obtain ⟨l, hl, hlen⟩ := unpack_good 8 decF64 b h
    simp only [parse_bytes, byteParser, parse_float_bytes, hl]
    exact key _ (by simp; omega)

/-- C05.  Text with a byte outside ASCII is a `UnicodeDecodeError`; an unsupported type form is a
`TypeError`. -/
theorem C05_text_and_type (b : Bytes) :
    ((∃ c ∈ b, 128 ≤ c.val) → parse_bytes b (.one .str) = .error .unicodeDecodeError) ∧
    parse_bytes b .other = .error .typeError := by
  refine ⟨fun ⟨c, hc, h⟩ => ?_, rfl⟩
  have : b.all (fun b => decide (b.val < 128)) = false := by
    rw [List.all_eq_false]; exact ⟨c, hc, by simpa using h⟩
  simp only [parse_bytes, byteParser, parse_str_bytes, this]
  rfl

/-- C05 does not hold for complex payloads: 8 bytes (half a complex number) decode to the empty
tuple instead of being rejected. -/
theorem C05_complex_not_rejected :
    ∃ b : Bytes, b.length % 16 ≠ 0 ∧ parse_bytes b (.many .complex) = .ok (.tuple []) :=
  ⟨[0, 0, 0, 0, 0, 0, 0, 0], by decide, by decide +kernel⟩

/-- C05, what holds for complex payloads: rejected when not a multiple of 8 (missing: lengths
≡ 8 mod 16 are accepted, see `C05_complex_not_rejected`). -/
theorem C05_complex_partial (b : Bytes) (h : b.length % 8 ≠ 0) :
    parse_bytes b (.many .complex) = .error .structError := by
  simp only [parse_bytes, byteParser, parse_complex_bytes, unpack_bad 8 _ b h]
  rfl

example : ([1, 2, 3, 4, 5] : Bytes).length % 8 ≠ 0 ∧ ([1, 2, 3, 4, 5] : Bytes).length % 4 ≠ 0 := by
  decide
example : ∃ c ∈ ([72, 200] : Bytes), 128 ≤ c.val := by decide +kernel

/-! ### C06 -/

/-- C06.  With at least `dtypes.length` records left, `get_dtype_dict` pairs the keys with the next
records, in order, and stops exactly after the last one used. -/
theorem C06_dict_exact (rs : List Bytes) (h : Fits rs) (dtypes : List (Key × BTyp)) (i : Nat)
    (hn : i + dtypes.length ≤ rs.length) (vals : List PyVal)
    (hlen : vals.length = dtypes.length)
    (hv : ∀ k (hk : k < dtypes.length),
      parse_bytes (rs[i + k]'(by omega)) dtypes[k].2 = .ok (vals[k]'(by omega))) :
    FReader.get_dtype_dict dtypes (atRecord rs i)
      = (.ok ((dtypes.map (·.1)).zip vals), atRecord rs (i + dtypes.length)) := by
  induction dtypes generalizing i vals with
  | nil => simp [FReader.get_dtype_dict]
  | cons kt dtypes ih =>
    obtain ⟨key, typ⟩ := kt
    cases vals with
    | nil => simp at hlen
    | cons v vals =>
      simp only [List.length_cons] at hn
      have hi : i < rs.length := by omega
      have h0 := hv 0 (by simp)
      simp only [Nat.add_zero, List.getElem_cons_zero] at h0
      have := ih (i + 1) (by omega) vals (by simpa using hlen) (by
        intro k hk
        have := hv (k + 1) (by simpa using hk)
        simp only [List.getElem_cons_succ] at this
        have e : i + 1 + k = i + (k + 1) := by omega
        simp only [e]; exact this)
      rw [FReader.get_dtype_dict, next_atRecord rs h i hi]
      simp only [h0, this]
      simp
      congr 1; omega

/-- C06.  If the file ends after fewer records, the result is the shorter dictionary for those
records, with no exception. -/
theorem C06_dict_short (rs : List Bytes) (h : Fits rs) (dtypes more : List (Key × BTyp)) (i : Nat)
    (hn : i + dtypes.length = rs.length) (vals : List PyVal)
    (hlen : vals.length = dtypes.length)
    (hv : ∀ k (hk : k < dtypes.length),
      parse_bytes (rs[i + k]'(by omega)) dtypes[k].2 = .ok (vals[k]'(by omega))) :
    FReader.get_dtype_dict (dtypes ++ more) (atRecord rs i)
      = (.ok ((dtypes.map (·.1)).zip vals), atRecord rs rs.length) := by
  induction dtypes generalizing i vals with
  | nil =>
    simp only [List.length_nil, Nat.add_zero] at hn
    subst hn
    cases more with
    | nil => simp [FReader.get_dtype_dict]
    | cons kt more =>
      obtain ⟨key, typ⟩ := kt
      rw [List.nil_append, FReader.get_dtype_dict, next_atEnd rs _ (Nat.le_refl _)]
      simp
  | cons kt dtypes ih =>
    obtain ⟨key, typ⟩ := kt
    cases vals with
    | nil => simp at hlen
    | cons v vals =>
      simp only [List.length_cons] at hn
      have hi : i < rs.length := by omega
      have h0 := hv 0 (by simp)
      simp only [Nat.add_zero, List.getElem_cons_zero] at h0
      have := ih (i + 1) (by omega) vals (by simpa using hlen) (by
        intro k hk
        have := hv (k + 1) (by simpa using hk)
        simp only [List.getElem_cons_succ] at this
        have e : i + 1 + k = i + (k + 1) := by omega
        simp only [e]; exact this)
      rw [List.cons_append, FReader.get_dtype_dict, next_atRecord rs h i hi]
      simp only [h0, this]
      simp

/-- Hypotheses of C06 on a concrete file: an integer and a text record, read from index 1. -/
example : parse_bytes [0, 0, 0, 7] (.one .int) = .ok (.int 7) ∧
    parse_bytes [72, 105] (.one .str) = .ok (.str (py"Hi")) ∧
    Fits [[9], [0, 0, 0, 7], [72, 105]] := by
  refine ⟨by decide +kernel, by decide +kernel, by simp [Fits]⟩

end Verif.Props

import Verif.Lemmas.CastepMatrix
import Verif.Props.Grids
import Mathlib.Tactic.LinearCombination
/-
C45 and C46: stress tensors, matrices and Raman tensors of a `.castep` file.
-/
namespace Verif.Props
open Verif Verif.Spec Verif.Castep

/-! ### C45 -/

/-- C45: the six components of a stress tensor are those of the upper triangle of the printed matrix, row by row. -/
theorem C45_stresses (title : Str) (lines : List Str) (xx xy xz yx yy yz zx zy zz : Numeral)
    (ht : (Res.STRESSES_BLOCK_RE.search title).isSome = true)
    (h : StressLines lines xx xy xz yx yy yz zx zy zz) (hn : NumsOk [xx, xy, xz, yx, yy, yz, zx, zy, zz]) :
    ∃ (kind : Str) (rd : Numeral → F64), Reads rd [xx, xy, xz, yy, yz, zz] ∧
      process_stresses (title :: lines) =
        .ok (.str kind, floats [rd xx, rd xy, rd xz, rd yy, rd yz, rd zz]) := by
  obtain ⟨rd, _, hrd⟩ := readings
  have hmem : ∀ n ∈ [xx, xy, xz, yy, yz, zz], n ∈ [xx, xy, xz, yx, yy, yz, zx, zy, zz] := by
    intro n; simp; tauto
  have hr := fun n hn' => hrd n (hn n (hmem n hn')).1 (hn n (hmem n hn')).2
  have hk : ∃ k, kindOf Res.STRESSES_BLOCK_RE title = .ok (.str k) := by
    unfold kindOf
    cases hs : Res.STRESSES_BLOCK_RE.search title with
    | none => rw [hs] at ht; cases ht
    | some m =>
      cases hg : m.group 1 with
      | none => simp only [hg]; exact ⟨_, rfl⟩
      | some s => cases s <;> simp only [hg] <;> exact ⟨_, rfl⟩
  obtain ⟨k, hk⟩ := hk
  refine ⟨k, rd, fun n hn' => (hr n hn').1.2, ?_⟩
  show (do let ftype ← kindOf Res.STRESSES_BLOCK_RE title; _) = _
  rw [hk]
  show (do let v ← to_type .float (strList (lines.foldl stressLine [])); _) = _
  rw [stress_fold h hn, to_type_nums fun n hn' => (hr n hn').1.1]
  rfl

/-- C45: a table of three columns is returned as printed. -/
theorem C45_three (split : Bool) (lines : List Str) (rows : List (List Numeral)) (h : Interleaved NotRow HoldsNumbers lines rows)
    (hn : ∀ r ∈ rows, NumsOk r ∧ r.length = 3) (hne : rows ≠ []) :
    ∃ rd : Numeral → F64, (∀ r ∈ rows, Reads rd r) ∧
      process_3_6_matrix split lines = .ok (.tuple (rows.map fun r => floats (r.map rd)), .none) := by
  obtain ⟨rd, _, hrd⟩ := readings
  have hr := fun r (hr : r ∈ rows) n hn' => hrd n ((hn r hr).1 n hn').1 ((hn r hr).1 n hn').2
  refine ⟨rd, fun r hr' n hn' => (hr r hr' n hn').1.2, ?_⟩
  rw [process_3_6_matrix, rows_collect h (fun r h => (hn r h).1) (fun r h n h' => (hr r h n h').1.1) fun r h => .inl (hn r h).2]
  cases split with
  | false => rfl
  | true =>
    cases rows with
    | nil => exact absurd rfl hne
    | cons r rs =>
      have : (elems (floats (r.map rd))).length = 3 := by
        simpa [elems, floats] using (hn r (by simp)).2
      show (if (elems (floats (r.map rd))).length = 6 then _ else _) = _
      rw [this]; rfl

/-- C45: a table of six columns is split between the third and the fourth, if asked for. -/
theorem C45_six (lines : List Str) (rows : List (List Numeral × List Numeral))
    (h : Interleaved NotRow HoldsNumbers lines (rows.map fun r => r.1 ++ r.2))
    (hn : ∀ r ∈ rows, NumsOk (r.1 ++ r.2) ∧ r.1.length = 3 ∧ r.2.length = 3) (hne : rows ≠ []) :
    ∃ rd : Numeral → F64, (∀ r ∈ rows, Reads rd (r.1 ++ r.2)) ∧
      process_3_6_matrix true lines =
        .ok (.tuple (rows.map fun r => floats (r.1.map rd)), .tuple (rows.map fun r => floats (r.2.map rd))) ∧
      process_3_6_matrix false lines = .ok (.tuple (rows.map fun r => floats ((r.1 ++ r.2).map rd)), .none) := by
  obtain ⟨rd, _, hrd⟩ := readings
  have hr := fun r (hr : r ∈ rows) n hn' => hrd n ((hn r hr).1 n hn').1 ((hn r hr).1 n hn').2
  refine ⟨rd, fun r hr' n hn' => (hr r hr' n hn').1.2, ?_⟩
  have e := rows_collect (rd := rd) h
    (fun r hr' => by obtain ⟨x, hx, rfl⟩ := List.mem_map.1 hr'; exact (hn x hx).1)
    (fun r hr' n hn' => by obtain ⟨x, hx, rfl⟩ := List.mem_map.1 hr'; exact (hr x hx n hn').1.1)
    (fun r hr' => by obtain ⟨x, hx, rfl⟩ := List.mem_map.1 hr'; right; simp [(hn x hx).2])
  rw [process_3_6_matrix, process_3_6_matrix, e, List.map_map]
  refine ⟨?_, rfl⟩
  cases rows with
  | nil => exact absurd rfl hne
  | cons r rs =>
    have h6 : (elems (floats ((r.1 ++ r.2).map rd))).length = 6 := by
      simp [elems, floats, (hn r (by simp)).2]
    show (if (elems (floats ((r.1 ++ r.2).map rd))).length = 6 then _ else _) = _
    rw [if_pos h6]
    have hl : ∀ x ∈ r :: rs, PyVal.tuple ((elems (floats ((x.1 ++ x.2).map rd))).take 3) = floats (x.1.map rd) := by
      intro x hx
      have := (hn x hx).2.1
      simp only [elems, floats, List.map_append, List.map_map]
      rw [List.take_left' (by simpa using this)]
    have hr2 : ∀ x ∈ r :: rs, PyVal.tuple (((elems (floats ((x.1 ++ x.2).map rd))).drop 3).take 3) = floats (x.2.map rd) := by
      intro x hx
      have h1 := (hn x hx).2.1
      have h2 := (hn x hx).2.2
      simp only [elems, floats, List.map_append, List.map_map]
      rw [List.drop_left' (by simpa using h1), List.take_of_length_le (by simp [h2])]
    show Except.ok (PyVal.tuple (((r :: rs).map _).map _), PyVal.tuple (((r :: rs).map _).map _)) = _
    rw [List.map_map, List.map_map]
    simp only [Function.comp_def]
    rw [List.map_congr_left hl, List.map_congr_left hr2]

/-- C45: the real and the imaginary parts of a dynamical matrix are put together entry by entry. -/
theorem C45_dynamical (t1 t2 ion : Str) (ls rest : List Str) (re im : List (Numeral × Numeral × List Numeral))
    (hr : List.Forall₂ DynRow ls re) (hi : ∀ l ∈ ls, ¬ Occurs (py"Ion") l) (hion : Occurs (py"Ion") ion)
    (hm : Interleaved (HoldsNumbers · []) DynRow rest im)
    (hn : ∀ r ∈ re ++ im, NumsOk (r.1 :: r.2.1 :: r.2.2)) :
    (List.Forall₂ (fun a b => a.2.2.length = b.2.2.length) re im →
      ∃ rd : Numeral → F64, (∀ r ∈ re ++ im, Reads rd r.2.2) ∧
        process_dynamical_matrix (t1 :: t2 :: (ls ++ ion :: rest)) =
          .ok (complexMatrix rd (re.map (·.2.2)) (im.map (·.2.2)))) ∧
    (¬ List.Forall₂ (fun a b => a.2.2.length = b.2.2.length) re im →
      process_dynamical_matrix (t1 :: t2 :: (ls ++ ion :: rest)) = .error .valueError) := by
  obtain ⟨_, fl, hfl⟩ := readings
  have hf : ∀ r ∈ re ++ im, ∀ n ∈ r.2.2, _ := fun r hr n hn' =>
    hfl n (hn r hr n (by simp [hn'])).1 (hn r hr n (by simp [hn'])).2
  have hf' : ∀ r ∈ re.map (·.2.2) ++ im.map (·.2.2), ∀ n ∈ r, pyFloat n.text = .ok (fl n) := by
    intro r hr
    rw [← List.map_append] at hr
    obtain ⟨x, hx, rfl⟩ := List.mem_map.1 hr
    exact fun n hn' => (hf x hx n hn').2.1
  have e : process_dynamical_matrix (t1 :: t2 :: (ls ++ ion :: rest)) =
      (do let rows ← complexRows ((re.map (·.2.2)).map (List.map Numeral.text)) ((im.map (·.2.2)).map (List.map Numeral.text))
          return PyVal.tuple rows) := by
    show (do let (re, rest) ← realRows (ls ++ ion :: rest); _) = _
    rw [realRows_eq hion ls re hr hi fun r hr => hn r (by simp [hr])]
    show (do let rows ← complexRows _ ((rest.filter _).map _); _) = _
    rw [imagRows_eq hm fun r hr => hn r (by simp [hr]), List.map_map, List.map_map]
    rfl
  have hfa : List.Forall₂ (fun a b : List Numeral => a.length = b.length) (re.map (·.2.2)) (im.map (·.2.2)) ↔
      List.Forall₂ (fun a b => a.2.2.length = b.2.2.length) re im := by
    rw [List.forall₂_map_left_iff, List.forall₂_map_right_iff]
  constructor
  · intro h
    refine ⟨fl, fun r hr n hn' => (hf r hr n hn').2.2, ?_⟩
    rw [e, complexRows_eq _ _ (hfa.2 h) hf']
    rfl
  · intro h
    rw [e, complexRows_err _ _ (mt hfa.1 h) hf']
    rfl

/-! #### Examples -/

/-- The numbers of a line, checked. -/
def holdsB (lead : Str) (l : List (Numeral × Str)) : Bool :=
  lead.all (fun c => !(48 ≤ c && c ≤ 57)) && lead.getLast?.all (fun c => !(py"+-.").contains c) &&
  l.dropLast.all (fun p => !p.2.isEmpty && p.2.all (fun c => !(48 ≤ c && c ≤ 57)) && p.2.head?.all (fun c => !(py"+-.Ee").contains c) &&
    p.2.getLast?.all (fun c => !(py"+-.").contains c)) &&
  l.getLast?.all (fun p => p.2.all (fun c => !(48 ≤ c && c ≤ 57)) && p.2.head?.all (fun c => !(py"+-.Ee").contains c))

theorem holds_of (line lead : Str) (l : List (Numeral × Str)) (h : holdsB lead l = true)
    (e : line = lead ++ l.flatMap fun p => p.1.text ++ p.2) : HoldsNumbers line (l.map Prod.fst) := by
  simp only [holdsB, Bool.and_eq_true, List.all_eq_true, Bool.not_eq_true', Option.all_eq_true, List.isEmpty_eq_false_iff,
    Bool.and_eq_false_iff, decide_eq_false_iff_not, List.contains_eq_mem] at h
  obtain ⟨⟨⟨h1, h2⟩, h3⟩, h4⟩ := h
  refine ⟨lead, l, e, ⟨fun c hc => ?_, fun c hc => ?_⟩, rfl, fun p hp => ⟨?_, fun c hc => ?_, fun c hc => ?_, fun c hc => ?_⟩,
    fun p hp => ⟨fun c hc => ?_, fun c hc => ?_⟩⟩
  · have := h1 c hc; omega
  · exact h2 c hc
  · exact (h3 p hp).1.1.1
  · have := (h3 p hp).1.1.2 c hc; omega
  · exact (h3 p hp).1.2 c hc
  · exact (h3 p hp).2 c hc
  · have := (h4 p hp).1 c hc; omega
  · exact (h4 p hp).2 c hc

def neg (i f : Str) : Numeral := ⟨some true, i, some f, none⟩

example : ∃ (kind : Str) (rd : Numeral → F64), Reads rd [neg (py"1") (py"5"), exDec (py"0") (py"25"), exDec (py"0") (py"3"),
      exDec (py"2") (py"5"), exDec (py"0") (py"4"), exDec (py"3") (py"5")] ∧
    process_stresses [py" *********** Symmetrised Stress Tensor ***********\n", py" *  x     -1.5   0.25   0.3   *\n",
        py" *  y     0.25   2.5   0.4   *\n", py" *  z     0.3   0.4   3.5   *\n", py" *                *\n"] =
      .ok (.str kind, floats [rd (neg (py"1") (py"5")), rd (exDec (py"0") (py"25")), rd (exDec (py"0") (py"3")),
        rd (exDec (py"2") (py"5")), rd (exDec (py"0") (py"4")), rd (exDec (py"3") (py"5"))]) :=
  C45_stresses _ _ _ _ _ (exDec (py"0") (py"25")) _ _ (exDec (py"0") (py"3")) (exDec (py"0") (py"4")) _ (by decide +kernel)
    ⟨[], py" *  x     -1.5   0.25   0.3   *\n", [], py" *  y     0.25   2.5   0.4   *\n", [], py" *  z     0.3   0.4   3.5   *\n",
      [py" *                *\n"], rfl, (by
        intro l hl; simp only [List.append_nil, List.nil_append, List.mem_singleton] at hl; subst hl
        refine ⟨?_, ?_, ?_⟩ <;> rw [← Str.contains_iff] <;> decide +kernel),
      (Str.contains_iff _ _).1 (by decide +kernel),
      holds_of _ (py" *  x     ") [(neg (py"1") (py"5"), py"   "), (exDec (py"0") (py"25"), py"   "), (exDec (py"0") (py"3"), py"   *\n")]
        (by decide +kernel) (by decide +kernel),
      (by rw [← Str.contains_iff]; decide +kernel), (Str.contains_iff _ _).1 (by decide +kernel),
      holds_of _ (py" *  y     ") [(exDec (py"0") (py"25"), py"   "), (exDec (py"2") (py"5"), py"   "), (exDec (py"0") (py"4"), py"   *\n")]
        (by decide +kernel) (by decide +kernel),
      (by rw [← Str.contains_iff]; decide +kernel), (by rw [← Str.contains_iff]; decide +kernel),
      (Str.contains_iff _ _).1 (by decide +kernel),
      holds_of _ (py" *  z     ") [(exDec (py"0") (py"3"), py"   "), (exDec (py"0") (py"4"), py"   "), (exDec (py"3") (py"5"), py"   *\n")]
        (by decide +kernel) (by decide +kernel)⟩
    (by decide +kernel)

def exRow3 : List Numeral := [exDec (py"1") (py"5"), exInt (py"2"), neg (py"3") (py"0")]

theorem exRow3_line : HoldsNumbers (py"  1.5   2  -3.0\n") exRow3 :=
  holds_of _ (py"  ") [(exDec (py"1") (py"5"), py"   "), (exInt (py"2"), py"  "), (neg (py"3") (py"0"), py"\n")]
    (by decide +kernel) (by decide +kernel)

/-- A title with one number. -/
theorem exTitle_notRow : NotRow (py"  DC Permittivity (f=0)\n") :=
  ⟨[exInt (py"0")], by decide +kernel, holds_of _ (py"  DC Permittivity (f=") [(exInt (py"0"), py")\n")] (by decide +kernel) (by decide +kernel),
    by decide, by decide⟩

example : ∃ rd : Numeral → F64, (∀ r ∈ [exRow3, exRow3], Reads rd r) ∧
    process_3_6_matrix true [py"  DC Permittivity (f=0)\n", py"  1.5   2  -3.0\n", py"  1.5   2  -3.0\n"] =
      .ok (.tuple ([exRow3, exRow3].map fun r => floats (r.map rd)), .none) :=
  C45_three _ _ _ (.skip exTitle_notRow (.row exRow3_line (.row exRow3_line .nil))) (by decide +kernel) (by decide)

theorem exRow6_line : HoldsNumbers (py"  1.5   2  -3.0   1.5   2  -3.0\n") (exRow3 ++ exRow3) :=
  holds_of _ (py"  ") [(exDec (py"1") (py"5"), py"   "), (exInt (py"2"), py"  "), (neg (py"3") (py"0"), py"   "),
    (exDec (py"1") (py"5"), py"   "), (exInt (py"2"), py"  "), (neg (py"3") (py"0"), py"\n")] (by decide +kernel) (by decide +kernel)

example : ∃ rd : Numeral → F64, (∀ r ∈ [(exRow3, exRow3)], Reads rd (r.1 ++ r.2)) ∧
    process_3_6_matrix true [py"  DC Permittivity (f=0)\n", py"  1.5   2  -3.0   1.5   2  -3.0\n"] =
      .ok (.tuple ([(exRow3, exRow3)].map fun r => floats (r.1.map rd)), .tuple ([(exRow3, exRow3)].map fun r => floats (r.2.map rd))) ∧
    process_3_6_matrix false [py"  DC Permittivity (f=0)\n", py"  1.5   2  -3.0   1.5   2  -3.0\n"] =
      .ok (.tuple ([(exRow3, exRow3)].map fun r => floats ((r.1 ++ r.2).map rd)), .none) :=
  C45_six _ _ (.skip exTitle_notRow (.row exRow6_line .nil)) (by decide +kernel) (by decide)

def exDyn : Numeral × Numeral × List Numeral := (exInt (py"1"), exInt (py"2"), exRow3)

theorem exDyn_line : DynRow (py"   1   2   1.5   2  -3.0\n") exDyn :=
  holds_of _ (py"   ") [(exInt (py"1"), py"   "), (exInt (py"2"), py"   "), (exDec (py"1") (py"5"), py"   "), (exInt (py"2"), py"  "),
    (neg (py"3") (py"0"), py"\n")] (by decide +kernel) (by decide +kernel)

example : ∃ rd : Numeral → F64, (∀ r ∈ [exDyn] ++ [exDyn], Reads rd r.2.2) ∧
    process_dynamical_matrix ([py"  Dynamical matrix\n", py" Ion XYZ        real part\n", py"   1   2   1.5   2  -3.0\n",
        py" Ion XYZ        imaginary part\n", py"   1   2   1.5   2  -3.0\n", py" ------\n"]) =
      .ok (complexMatrix rd [exRow3] [exRow3]) :=
  (C45_dynamical _ _ _ _ _ [exDyn] [exDyn] (.cons exDyn_line .nil)
    (by intro l hl; rw [List.mem_singleton.1 hl, ← Str.contains_iff]; decide +kernel)
    ((Str.contains_iff _ _).1 (by decide +kernel))
    (.row exDyn_line (.skip (holds_of _ (py" ------\n") [] (by decide +kernel) (by decide +kernel)) .nil))
    (by decide +kernel)).1 (.cons rfl .nil)

/-! ### C46 -/

/-- Exact arithmetic in a ring. -/
def ringOps (R : Type) [CommRing R] : Ops R := ⟨(· + ·), (· - ·), (· * ·), List.sum⟩

/-- C46: with exact arithmetic the two numbers computed from a tensor are its trace and (half the difference of the
square of its trace and the trace of its square) its second invariant. -/
theorem C46_invariants {R : Type} [CommRing R] (A : Matrix (Fin 3) (Fin 3) R) :
    (ringOps R).trace (fun i j => A (Fin.ofNat 3 i) (Fin.ofNat 3 j)) = A.trace ∧
    2 * (ringOps R).second (fun i j => A (Fin.ofNat 3 i) (Fin.ofNat 3 j)) = A.trace ^ 2 - (A * A).trace := by
  have h0 : (Fin.ofNat 3 0 : Fin 3) = 0 := rfl
  have h1 : (Fin.ofNat 3 1 : Fin 3) = 1 := rfl
  have h2 : (Fin.ofNat 3 2 : Fin 3) = 2 := rfl
  constructor
  · simp only [Ops.trace, ringOps, h0, h1, h2, List.sum_cons, List.sum_nil, Matrix.trace_fin_three]
    ring
  · simp only [Ops.second, ringOps, h0, h1, h2, Matrix.trace_fin_three, Matrix.mul_apply, Fin.sum_univ_three]
    ring

/-- C46: in floating point every operation gives the double nearest to the exact result, unless it overflows. -/
theorem C46_rounding (sum : List F64 → F64) (x y : F64) (hx : x.Finite) (hy : y.Finite) :
    (((floatOps sum).add x y).Finite → F64.Nearest (x.toRat + y.toRat) ((floatOps sum).add x y)) ∧
    (((floatOps sum).sub x y).Finite → F64.Nearest (x.toRat - y.toRat) ((floatOps sum).sub x y)) ∧
    (((floatOps sum).mul x y).Finite → F64.Nearest (x.toRat * y.toRat) ((floatOps sum).mul x y)) :=
  ⟨F64.add_nearest hx hy, F64.sub_nearest hx hy, F64.mul_nearest hx hy⟩

/-- C46: for every mode that is printed the tensor and the depolarisation ratio are returned, and the trace and the second
invariant computed from the tensor. -/
theorem C46_raman (o : Ops F64) (title : Str) (lines : List Str) (modes : List RamanMode) (h : RamanMode.Lines lines modes)
    (hn : ∀ m ∈ modes, NumsOk m.nums) :
    ∃ rd fl : Numeral → F64, (∀ m ∈ modes, Reads rd m.nums ∧ Reads fl m.nums) ∧
      process_raman o (title :: lines) = .ok (.list (modes.map (RamanMode.entry rd fl
        (fun x => o.trace fun i j => x (Fin.ofNat 3 i) (Fin.ofNat 3 j))
        (fun x => o.second fun i j => x (Fin.ofNat 3 i) (Fin.ofNat 3 j))))) := by
  obtain ⟨rd, fl, hrd⟩ := readings
  have hr := fun m (hm : m ∈ modes) n hn' => hrd n (hn m hm n hn').1 (hn m hm n hn').2
  refine ⟨rd, fl, fun m hm => ⟨fun n hn' => (hr m hm n hn').1.2, fun n hn' => (hr m hm n hn').2.2⟩, ?_⟩
  exact raman_modes o h [] [] hn (fun m hm n hn' => (hr m hm n hn').1.1) fun m hm n hn' => (hr m hm n hn').2.1

/-- The tensor of a mode. -/
def exMode : RamanMode := ⟨fun i j => if i = 0 then exDec (py"0") (py"5") else if j = 0 then neg (py"1") (py"25") else exDec (py"2") (py"0"),
  exDec (py"0") (py"75")⟩

example : ∃ rd fl : Numeral → F64, (∀ m ∈ [exMode], Reads rd m.nums ∧ Reads fl m.nums) ∧
    process_raman (floatOps fun l => l.foldl F64.add ⟨0⟩) [py" + Raman tensors +\n", py" +-----------+\n",
        py" + Mode number:   1 Raman tensor       Depolarisation Ratio     +\n",
        py" +   0.5  0.5  0.5   0.75    +\n", py" +   -1.25  2.0  2.0     +\n", py" +   -1.25  2.0  2.0     +\n", py" +       +\n",
        py" +-----------+\n"] =
      .ok (.list ([exMode].map (RamanMode.entry rd fl
        (fun x => (floatOps fun l => l.foldl F64.add ⟨0⟩).trace fun i j => x (Fin.ofNat 3 i) (Fin.ofNat 3 j))
        (fun x => (floatOps fun l => l.foldl F64.add ⟨0⟩).second fun i j => x (Fin.ofNat 3 i) (Fin.ofNat 3 j))))) :=
  have body : ∀ l : Str, Str.contains (py"Mode number") l = false → RamanMode.Body l := fun _ => body_iff.2
  have hskip : ¬ RamanMode.End (py" +-----------+\n") := by rw [← end_iff]; decide +kernel
  C46_raman _ _ _ _ (.skip (body _ (by decide +kernel)) (by decide +kernel) hskip
    (.mode (m := exMode) ((Str.contains_iff _ _).1 (by decide +kernel))
      (body _ (by decide +kernel)) (holds_of _ (py" +   ") [(exDec (py"0") (py"5"), py"  "), (exDec (py"0") (py"5"), py"  "),
        (exDec (py"0") (py"5"), py"   "), (exDec (py"0") (py"75"), py"    +\n")] (by decide +kernel) (by decide +kernel))
      (body _ (by decide +kernel)) (holds_of _ (py" +   ") [(neg (py"1") (py"25"), py"  "), (exDec (py"2") (py"0"), py"  "),
        (exDec (py"2") (py"0"), py"     +\n")] (by decide +kernel) (by decide +kernel))
      (body _ (by decide +kernel)) (holds_of _ (py" +   ") [(neg (py"1") (py"25"), py"  "), (exDec (py"2") (py"0"), py"  "),
        (exDec (py"2") (py"0"), py"     +\n")] (by decide +kernel) (by decide +kernel))
      (body _ (by decide +kernel)) (by decide +kernel) ((end_iff _).1 (by decide +kernel))
      (.skip (body _ (by decide +kernel)) (by decide +kernel) hskip .nil))) (by decide +kernel)

/-- A tensor whose second invariant is not zero. -/
example : (ringOps ℚ).second (fun i j => (!![1, 2, 3; 4, 5, 6; 7, 8, 10] : Matrix (Fin 3) (Fin 3) ℚ) (Fin.ofNat 3 i) (Fin.ofNat 3 j)) = -12 := by
  decide +kernel

/-- A sum that is rounded: 2^53 + 1. -/
example : F64.add ⟨0x4340000000000000⟩ ⟨0x3FF0000000000000⟩ = ⟨0x4340000000000000⟩ ∧
    (F64.add ⟨0x4340000000000000⟩ ⟨0x3FF0000000000000⟩).Finite := by decide +kernel

end Verif.Props

import Verif.Lemmas.CallerData
import Mathlib.Algebra.Order.Ring.Rat
/-!
# C60 — calls leave the caller's data alone
-/

set_option linter.unusedSectionVars false

namespace Implicit

open Spec PyMem

variable {R : Type} [LinearOrder R] [Field R]

theorem Spec.Unchanged.slices {m m' : PyMem R} (h : Unchanged m m') {o : SpObject} (ho : ArraysExist m o) :
    m'.slices o = m.slices o := by
  unfold PyMem.slices
  rw [h.ints ho.minor, h.vals ho.data, h.ints ho.major]

theorem Spec.Unchanged.triples {m m' : PyMem R} (h : Unchanged m m') {o : SpObject} (ho : ArraysExist m o) :
    m'.triples o = m.triples o := by
  unfold PyMem.triples
  rw [h.slices ho, h.ints ho.minor, h.vals ho.data, h.ints ho.major]

theorem Spec.ValidCsr.exist {m : PyMem R} {o : SpObject} (h : ValidCsr m o) : ArraysExist m o := by
  obtain ⟨_, h1⟩ := h.data
  obtain ⟨_, h2⟩ := h.minor
  obtain ⟨_, h3⟩ := h.major
  exact ⟨(List.getElem?_eq_some_iff.mp h1).1, (List.getElem?_eq_some_iff.mp h2).1, (List.getElem?_eq_some_iff.mp h3).1⟩

theorem Spec.ValidCsr.of_unchanged {m m' : PyMem R} {o : SpObject} (h : ValidCsr m o) (hu : Unchanged m m') :
    ValidCsr m' o := by
  have he := h.exist
  obtain ⟨d, h1⟩ := h.data
  obtain ⟨i, h2⟩ := h.minor
  obtain ⟨p, h3⟩ := h.major
  refine ⟨h.format, ⟨d, (hu.getArray he.data).trans h1⟩, ⟨i, (hu.getArray he.minor).trans h2⟩,
    ⟨p, (hu.getArray he.major).trans h3⟩, h.other, ?_, ?_, ?_, ?_⟩
  · rw [hu.ints he.minor, hu.vals he.data, h.length]
  · rw [hu.ints he.major]
    exact h.nonneg
  · rw [hu.ints he.major]
    exact h.mono
  · rw [hu.ints he.major, hu.ints he.minor]
    exact h.bound

theorem Spec.OnlyReorders.of_unchanged {m m' : PyMem R} (h : Unchanged m m') {o : SpObject} (ho : ArraysExist m o) :
    OnlyReorders m m' o :=
  ⟨h.objects, fun _ ha _ _ => h.getArray ha, by rw [h.triples ho]⟩

/-- Sorting either the argument or something new. -/
theorem ensureSorted_only {m m' : PyMem R} {x y : Nat} (ho : ArraysExist m (m.object x)) (h : Unchanged m m')
    (hv : ValidCsr m' (m'.object y)) (hy : (y = x ∧ x < m.objects.length) ∨ Fresh m m' y) :
    OnlyReorders m (ensureSorted m' y) (m.object x) := by
  rcases hy with ⟨rfl, hx⟩ | hf
  · have he : m'.object y = m.object y := h.object hx
    obtain ⟨h1, h2, h3, h4, -⟩ := ensureSorted_spec he (he ▸ hv)
    refine ⟨h1 ▸ h.objects, fun a ha hd hm => (h3 a hd hm).trans (h.getArray ha), ?_⟩
    rw [← h.triples ho]
    exact h4
  · exact .of_unchanged (ensureSorted_fresh h hf) ho

/-- Other matrices that share neither the data nor the indices of a reordered one are as before. -/
theorem C60_others {m m' : PyMem R} {o o' : SpObject} (h : OnlyReorders m m' o) (he : ArraysExist m o')
    (hshare : ∀ a ∈ [o'.data, o'.minor, o'.major], a ≠ o.data ∧ a ≠ o.minor) : m'.triples o' = m.triples o' := by
  have key : ∀ a ∈ [o'.data, o'.minor, o'.major], a < m.arrays.length → m'.arrays[a]? = m.arrays[a]? :=
    fun a ha hl => h.arrays a hl (hshare a ha).1 (hshare a ha).2
  have hd : m'.vals o'.data = m.vals o'.data := by
    unfold PyMem.vals
    rw [key _ (by simp) he.data]
  have hi : m'.ints o'.minor = m.ints o'.minor := by
    unfold PyMem.ints
    rw [key _ (by simp) he.minor]
  have hp : m'.ints o'.major = m.ints o'.major := by
    unfold PyMem.ints
    rw [key _ (by simp) he.major]
  unfold PyMem.triples PyMem.slices
  rw [hd, hi, hp]

theorem hasSorted_unchanged {m m' : PyMem R} (h : Unchanged m m') {x : Nat} (hx : x < m.objects.length)
    (ho : ArraysExist m (m.object x)) : m'.hasSortedIndices x = m.hasSortedIndices x := by
  unfold PyMem.hasSortedIndices
  rw [h.object hx, h.slices ho]

/-- What the theorems on training say about a call that leaves memory `m'` and trains on object `y`. -/
structure TrainsOn (sorts : Bool) (m : PyMem R) (x : Nat) (m' : PyMem R) (y : Nat) : Prop where
  /-- at most the order of the argument's entries changes -/
  only : OnlyReorders m m' (m.object x)
  /-- nothing changes unless the argument is an unsorted CSR matrix of single precision numbers -/
  unchanged : sorts = false ∨ (m.object x).format ≠ .csr ∨ (m.object x).float32 ≠ true ∨ m.hasSortedIndices x = true →
    Unchanged m m'
  /-- the rows trained on are sorted -/
  sorted : sorts = true → m'.hasSortedIndices y = true
  /-- and have the cells of the argument -/
  cells : ∀ i < (m.object x).nrows, ∀ j,
    Spec.total (m'.triples (m'.object y)) i j = Spec.total (m.triples (m.object x)) i j

theorem trainsOn_prepared (sorts : Bool) {m : PyMem R} {x : Nat} {r : Nat × PyMem R} (hx : x < m.objects.length)
    (ho : ArraysExist m (m.object x)) (h : Prepared m x r) :
    TrainsOn sorts m x (if sorts then ensureSorted r.2 r.1 else r.2) r.1 := by
  have hcase : (r.1 = x ∧ x < m.objects.length) ∨ Fresh m r.2 r.1 := by
    by_cases hc : (m.object x).format = .csr ∧ (m.object x).float32 = true
    · exact Or.inl ⟨h.same hc.1 hc.2, hx⟩
    · exact Or.inr (h.fresh hc)
  cases sorts with
  | false =>
    exact ⟨.of_unchanged h.unchanged ho, fun _ => h.unchanged, fun hf => absurd hf (by simp), h.cells⟩
  | true =>
    obtain ⟨h1, -, -, h4, h5, h6, h7⟩ := ensureSorted_spec (m := r.2) (x := r.1) rfl h.valid
    refine ⟨ensureSorted_only ho h.unchanged h.valid hcase, ?_, fun _ => h5, ?_⟩
    · intro hc
      simp only [if_true]
      by_cases hcc : (m.object x).format = .csr ∧ (m.object x).float32 = true
      · have hs : m.hasSortedIndices x = true := by
          rcases hc with hc | hc | hc | hc
          · cases hc
          · exact absurd hcc.1 hc
          · exact absurd hcc.2 hc
          · exact hc
        rw [h7 (by rw [h.same hcc.1 hcc.2, hasSorted_unchanged h.unchanged hx ho, hs])]
        exact h.unchanged
      · exact ensureSorted_fresh h.unchanged (h.fresh hcc)
    · intro i hi j
      rw [← h.cells i hi j]
      have he : (ensureSorted r.2 r.1).object r.1 = r.2.object r.1 := by
        unfold PyMem.object
        rw [h1]
      simp only [if_true]
      rw [he]
      exact total_perm h4 i j

/-- **C60** (`BayesianPersonalizedRanking.fit`).  Missing: the entries of an unsorted argument are reordered in place. -/
theorem C60_bpr_partial (verify : Bool) (m : PyMem R) (x : Nat) (hx : x < m.objects.length)
    (ho : ArraysExist m (m.object x)) (hv : (m.object x).format = .csr → ValidCsr m (m.object x)) :
    TrainsOn verify m x (bprPrepare verify m x).2 (bprPrepare verify m x).1 :=
  trainsOn_prepared verify hx ho (prepared_float_csr hx hv)

/-- **C60** (the same on the GPU). -/
theorem C60_gpu_bpr_partial (verify : Bool) (m : PyMem R) (x : Nat) (hx : x < m.objects.length)
    (ho : ArraysExist m (m.object x)) (hv : (m.object x).format = .csr → ValidCsr m (m.object x)) :
    TrainsOn verify m x (gpuBprPrepare verify m x).2 (gpuBprPrepare verify m x).1 :=
  trainsOn_prepared verify hx ho (prepared_csr_float hx hv)

/-- More new arrays do not matter. -/
theorem Prepared.extend {m m' : PyMem R} {x : Nat} {r : Nat × PyMem R} (h : Prepared m x r)
    (h' : Unchanged r.2 m') : Prepared m x (r.1, m') := by
  have he := h'.object h.exist
  refine ⟨h.unchanged.trans h', ?_, ?_, h.same, fun hc => (h.fresh hc).of_unchanged h', ?_⟩
  · have := h'.lengths
    have := h.exist
    simp only
    omega
  · simp only
    rw [he]
    exact h.valid.of_unchanged h'
  · simp only
    rw [he, h'.triples h.valid.exist]
    exact h.cells

theorem total_swap (es : List (Nat × Nat × R)) (i j : Nat) :
    Spec.total (es.map fun e => (e.2.1, e.1, e.2.2)) j i = Spec.total es i j := by
  unfold Spec.total
  rw [List.filter_map, List.map_map]
  congr 1
  rw [show (fun e : Nat × Nat × R => e.2.2) ∘ (fun e : Nat × Nat × R => (e.2.1, e.1, e.2.2)) = fun e => e.2.2 from rfl]
  congr 1
  refine List.filter_congr fun e _ => ?_
  simp [Bool.and_comm]

/-- `X.T.tocsr()` of a CSR matrix is new and has the transposed cells. -/
theorem transposed_csr {m : PyMem R} {y : Nat} (hv : ValidCsr m (m.object y)) :
    let t := (m.transpose y).2.toCsr (m.transpose y).1
    Unchanged m t.2 ∧ Fresh m t.2 t.1 ∧ ValidCsr t.2 (t.2.object t.1) ∧
    ∀ j < (m.object y).ncols, ∀ i,
      Spec.total (t.2.triples (t.2.object t.1)) j i = Spec.total (m.triples (m.object y)) i j := by
  intro t
  set o := m.object y with ho
  set oT : SpObject := { o with format := .csc, nrows := o.ncols, ncols := o.nrows } with hoT
  have htr : m.transpose y = m.newObject oT := by
    unfold PyMem.transpose
    simp only [← ho, hv.format]
    rfl
  have hu : Unchanged m (m.transpose y).2 := htr ▸ newObject_unchanged m oT
  have hobj : (m.transpose y).2.object (m.transpose y).1 = oT := by
    rw [htr]
    exact newObject_object m oT
  have hlt : (m.transpose y).1 < (m.transpose y).2.objects.length := by
    rw [htr]
    simp [PyMem.newObject]
  obtain ⟨a1, a2, a3, a4, a5, a6, a7, a8⟩ := toCsr_spec hlt hobj (fun h => by cases h)
  refine ⟨hu.trans a1, (a7 (by simp [hoT])).weaken hu, a3, fun j hj i => ?_⟩
  rw [a8 j hj i]
  have h1 : (m.transpose y).2.triples oT = (m.triples o).map fun e => (e.2.1, e.1, e.2.2) := by
    have h2 : (m.transpose y).2.slices oT = m.slices o := hu.slices (o := o) hv.exist
    rw [triples_csr hv.format, List.map_flatMap]
    show ((m.transpose y).2.slices oT).zipIdx.flatMap _ = _
    rw [h2]
    refine List.flatMap_congr fun p _ => ?_
    simp
  rw [h1, total_swap]

/-- **C60** (`LogisticMatrixFactorization.fit`): as for BPR, and the transposed matrix has the transposed cells. -/
theorem C60_lmf_partial (m : PyMem R) (x : Nat) (hx : x < m.objects.length)
    (ho : ArraysExist m (m.object x)) (hv : (m.object x).format = .csr → ValidCsr m (m.object x)) :
    let r := lmfPrepare m x
    TrainsOn true m x r.2 r.1.1 ∧ r.2.hasSortedIndices r.1.2 = true ∧
    ∀ i < (m.object x).nrows, ∀ j < (r.2.object r.1.1).ncols,
      Spec.total (r.2.triples (r.2.object r.1.2)) j i = Spec.total (m.triples (m.object x)) i j := by
  intro r
  have hp := prepared_float_csr hx hv
  obtain ⟨p, hpdef⟩ : ∃ p, p = (toFloat32 m x).2.checkCsr (toFloat32 m x).1 := ⟨_, rfl⟩
  rw [← hpdef] at hp
  obtain ⟨t1, t2, t3, t4⟩ := transposed_csr hp.valid
  obtain ⟨t, htdef⟩ : ∃ t, t = (p.2.transpose p.1).2.toCsr (p.2.transpose p.1).1 := ⟨_, rfl⟩
  have hr : r = ((p.1, t.1), ensureSorted (ensureSorted t.2 t.1) p.1) := by
    rw [htdef, hpdef]
    rfl
  clear_value r
  simp only [← htdef] at t1 t2 t3 t4
  have hu : Unchanged p.2 (ensureSorted t.2 t.1) := ensureSorted_fresh t1 t2
  have hp' := hp.extend hu
  have hT := trainsOn_prepared true hx ho hp'
  simp only [if_true] at hT
  rw [hr]
  simp only
  obtain ⟨s1, s2, s3, s4, s5, s6, -⟩ := ensureSorted_spec (m := t.2) (x := t.1) rfl t3
  have he : (ensureSorted t.2 t.1).object p.1 = p.2.object p.1 := hu.object hp.exist
  have hval : ValidCsr (ensureSorted t.2 t.1) (p.2.object p.1) := hp.valid.of_unchanged hu
  obtain ⟨q1, q2, q3, q4, q5, q6, -⟩ := ensureSorted_spec (x := p.1) he hval
  have hot : ∀ k, (ensureSorted (ensureSorted t.2 t.1) p.1).object k = t.2.object k := by
    intro k
    unfold PyMem.object
    rw [q1, s1]
  -- the arrays of the transpose are not those of the matrix
  have hpe := hp.valid.exist
  have hshare : ∀ a ∈ [(t.2.object t.1).data, (t.2.object t.1).minor, (t.2.object t.1).major],
      a ≠ (p.2.object p.1).data ∧ a ≠ (p.2.object p.1).minor := by
    have := t2.data
    have := t2.minor
    have := t2.major
    have := hpe.data
    have := hpe.minor
    intro a ha
    simp only [List.mem_cons, List.not_mem_nil, or_false] at ha
    rcases ha with rfl | rfl | rfl <;> constructor <;> omega
  have hex : ArraysExist (ensureSorted t.2 t.1) (t.2.object t.1) := s6.exist
  have harr : ∀ a ∈ [(t.2.object t.1).data, (t.2.object t.1).minor, (t.2.object t.1).major],
      (ensureSorted (ensureSorted t.2 t.1) p.1).arrays[a]? = (ensureSorted t.2 t.1).arrays[a]? :=
    fun a ha => q3 a (hshare a ha).1 (hshare a ha).2
  have hsl : (ensureSorted (ensureSorted t.2 t.1) p.1).slices (t.2.object t.1) =
      (ensureSorted t.2 t.1).slices (t.2.object t.1) := by
    unfold PyMem.slices PyMem.ints PyMem.vals
    rw [harr _ (by simp), harr _ (by simp), harr _ (by simp)]
  refine ⟨hT, ?_, ?_⟩
  · unfold PyMem.hasSortedIndices at s5 ⊢
    rw [hot, hsl]
    rwa [show (ensureSorted t.2 t.1).object t.1 = t.2.object t.1 by unfold PyMem.object; rw [s1]] at s5
  · intro i hi j hj
    have hobj1 : t.2.object p.1 = p.2.object p.1 := t1.object hp.exist
    rw [hot, hobj1] at hj
    have e1 : (ensureSorted (ensureSorted t.2 t.1) p.1).triples (t.2.object t.1) =
        (ensureSorted t.2 t.1).triples (t.2.object t.1) := by
      rw [triples_csr t3.format, triples_csr t3.format, hsl]
    rw [hot, e1, total_perm s4 j i, t4 j hj i, hp.cells i hi j]

/-! ## ALS -/

theorem slicesAt_map {A B : Type} (g : A → B) (l : List A) : ∀ p : List Nat,
    slicesAt (l.map g) p = (slicesAt l p).map (List.map g)
  | [] => rfl
  | [_] => rfl
  | a :: b :: p => by
    unfold slicesAt
    rw [slicesAt_map g l (b :: p), List.map_cons, ← List.map_drop, List.map_take]

theorem total_scale (alpha : R) (es : List (Nat × Nat × R)) (i j : Nat) :
    Spec.total (es.map fun e => (e.1, e.2.1, alpha * e.2.2)) i j = alpha * Spec.total es i j := by
  unfold Spec.total
  rw [List.filter_map, List.map_map]
  rw [← List.sum_map_mul_left]
  rfl

theorem scale_spec (alpha : R) {m : PyMem R} {y : Nat} (hv : ValidCsr m (m.object y)) :
    let r := m.scale alpha y
    Unchanged m r.2 ∧ Fresh m r.2 r.1 ∧ ValidCsr r.2 (r.2.object r.1) ∧
    ∀ i j, Spec.total (r.2.triples (r.2.object r.1)) i j = alpha * Spec.total (m.triples (m.object y)) i j := by
  intro r
  obtain ⟨c1, c2, c3, -, -, c6, c7, c8, c9⟩ := copied_spec (m := m) (m.object y) (m.object y).float32
    ((m.vals (m.object y).data).map (alpha * ·))
  have hr : m.newMatrix (m.object y).format (m.object y).float32 (m.object y).nrows (m.object y).ncols
    ((m.vals (m.object y).data).map (alpha * ·)) (m.ints (m.object y).minor) (m.ints (m.object y).major) = r := rfl
  simp only [hr] at c1 c2 c3 c6 c7 c8 c9
  refine ⟨c1, c2, c6 hv (List.length_map _), fun i j => ?_⟩
  rw [← total_scale]
  congr 1
  rw [triples_csr (c3.trans hv.format), triples_csr hv.format, List.map_flatMap]
  have hs : r.2.slices (r.2.object r.1) = (m.slices (m.object y)).map (List.map fun e => (e.1, alpha * e.2)) := by
    unfold PyMem.slices
    rw [c7, c8, c9, List.zip_map_right, ← slicesAt_map]
    rfl
  rw [hs, List.zipIdx_map, List.flatMap_map]
  refine List.flatMap_congr fun p _ => ?_
  simp

/-- **C60** (`AlternatingLeastSquares.fit`): nothing of the caller's changes; the matrices trained on have the cells of the
argument times `alpha`. -/
theorem C60_als (alpha : R) (m : PyMem R) (x : Nat) (hx : x < m.objects.length)
    (hv : (m.object x).format = .csr → ValidCsr m (m.object x)) :
    let r := alsPrepare alpha m x
    Unchanged m r.2 ∧
    (∀ i < (m.object x).nrows, ∀ j, Spec.total (r.2.triples (r.2.object r.1.1)) i j =
      alpha * Spec.total (m.triples (m.object x)) i j) ∧
    ∀ i < (m.object x).nrows, ∀ j < (r.2.object r.1.1).ncols,
      Spec.total (r.2.triples (r.2.object r.1.2)) j i = alpha * Spec.total (m.triples (m.object x)) i j := by
  intro r
  have hp := prepared_csr_float hx hv
  obtain ⟨p, hpdef⟩ : ∃ p, p = toFloat32 (m.checkCsr x).2 (m.checkCsr x).1 := ⟨_, rfl⟩
  rw [← hpdef] at hp
  obtain ⟨q, hqdef⟩ : ∃ q, q = if alpha ≠ 1 then p.2.scale alpha p.1 else (p.1, p.2) := ⟨_, rfl⟩
  have hq : Unchanged p.2 q.2 ∧ q.1 < q.2.objects.length ∧ ValidCsr q.2 (q.2.object q.1) ∧
      ∀ i j, Spec.total (q.2.triples (q.2.object q.1)) i j = alpha * Spec.total (p.2.triples (p.2.object p.1)) i j := by
    by_cases ha : alpha = 1
    · rw [if_neg (by simpa using ha)] at hqdef
      subst hqdef
      exact ⟨Unchanged.refl _, hp.exist, hp.valid, fun i j => by rw [ha, one_mul]⟩
    · rw [if_pos ha] at hqdef
      obtain ⟨c1, c2, c3, c4⟩ := scale_spec alpha hp.valid
      rw [hqdef]
      exact ⟨c1, c2.exist, c3, c4⟩
  obtain ⟨q1, q2, q3, q4⟩ := hq
  obtain ⟨t1, t2, t3, t4⟩ := transposed_csr q3
  obtain ⟨t, htdef⟩ : ∃ t, t = (q.2.transpose q.1).2.toCsr (q.2.transpose q.1).1 := ⟨_, rfl⟩
  have hr : r = ((q.1, t.1), t.2) := by
    rw [htdef, hqdef, hpdef]
    rfl
  clear_value r
  simp only [← htdef] at t1 t2 t3 t4
  rw [hr]
  simp only
  have he : t.2.object q.1 = q.2.object q.1 := t1.object q2
  refine ⟨hp.unchanged.trans (q1.trans t1), fun i hi j => ?_, fun i hi j hj => ?_⟩
  · rw [he, t1.triples q3.exist, q4, hp.cells i hi j]
  · rw [t4 j (he ▸ hj) i, q4, hp.cells i hi j]

/-- **C60** (`recalculate_user`, `recalculate_item`, `partial_fit_*`): nothing changes. -/
theorem C60_recalculate (alpha : R) (m : PyMem R) (x : Nat) (hx : x < m.objects.length)
    (hv : (m.object x).format = .csr → ValidCsr m (m.object x)) :
    let r := recalculatePrepare alpha m x
    Unchanged m r.2 ∧ ∀ i < (m.object x).nrows, ∀ j,
      Spec.total (r.2.triples (r.2.object r.1)) i j = alpha * Spec.total (m.triples (m.object x)) i j := by
  intro r
  obtain ⟨a1, a2, a3, -, -, -, -, a8⟩ := toCsr_spec hx rfl hv
  obtain ⟨p, hpdef⟩ : ∃ p, p = m.toCsr x := ⟨_, rfl⟩
  simp only [← hpdef] at a1 a2 a3 a8
  by_cases ha : alpha = 1
  · have hr : r = p := by
      show (if alpha ≠ 1 then (m.checkCsr x).2.scale alpha (m.checkCsr x).1 else m.checkCsr x) = p
      rw [if_neg (by simpa using ha), hpdef]
      rfl
    rw [hr]
    exact ⟨a1, fun i hi j => by rw [a8 i hi j, ha, one_mul]⟩
  · have hr : r = p.2.scale alpha p.1 := by
      show (if alpha ≠ 1 then (m.checkCsr x).2.scale alpha (m.checkCsr x).1 else m.checkCsr x) = _
      rw [if_pos ha, hpdef]
      rfl
    obtain ⟨c1, c2, c3, c4⟩ := scale_spec alpha a3
    simp only [← hr] at c1 c2 c3 c4
    exact ⟨a1.trans c1, fun i hi j => by rw [c4, a8 i hi j]⟩

/-! ## Splits and weights -/

/-- `tocoo()`: the argument or a copy, with the same triples. -/
theorem toCoo_spec {m : PyMem R} {x : Nat} {o : SpObject} (hx : x < m.objects.length) (ho : m.object x = o)
    (hlen : o.format = .coo → (m.ints o.major).length = (m.vals o.data).length ∧
      (m.ints o.minor).length = (m.vals o.data).length) (he : ArraysExist m o) :
    let r := m.toCoo x
    let o' := r.2.object r.1
    Unchanged m r.2 ∧ r.1 < r.2.objects.length ∧ (o.format ≠ .coo → Fresh m r.2 r.1) ∧ (o.format = .coo → r = (x, m)) ∧
    o'.format = .coo ∧ o'.float32 = o.float32 ∧ o'.nrows = o.nrows ∧ o'.ncols = o.ncols ∧ ArraysExist r.2 o' ∧
    r.2.triples o' = m.triples o ∧ (r.2.ints o'.major).length = (r.2.vals o'.data).length ∧
    (r.2.ints o'.minor).length = (r.2.vals o'.data).length := by
  intro r o'
  by_cases hf : o.format = .coo
  · have h1 : r = (x, m) := by
      show m.toCoo x = _
      unfold PyMem.toCoo
      simp only [ho, hf]
    have h2 : o' = o := by
      show r.2.object r.1 = o
      rw [h1]
      exact ho
    rw [h2, h1]
    exact ⟨Unchanged.refl m, hx, fun h => absurd hf h, fun _ => rfl, hf, rfl, rfl, rfl, he, rfl, (hlen hf).1, (hlen hf).2⟩
  · have h1 : r = m.newCoo o.float32 o.nrows o.ncols (m.triples o) := by
      show m.toCoo x = _
      unfold PyMem.toCoo
      simp only [ho]
    obtain ⟨c1, c2, c3, c4, c5, c6, c7, c8, c9, c10, c11, c12, c13⟩ := newMatrix_read m .coo o.float32 o.nrows o.ncols
      ((m.triples o).map fun e => e.2.2) ((m.triples o).map fun e => Int.ofNat e.2.1)
      ((m.triples o).map fun e => Int.ofNat e.1)
    have hd : r.2.arrays[o'.data]? = some (.vals ((m.triples o).map fun e => e.2.2)) := by
      simp only [o', h1]
      exact c10
    have hi : r.2.arrays[o'.minor]? = some (.ints ((m.triples o).map fun e => Int.ofNat e.2.1)) := by
      simp only [o', h1]
      exact c11
    have hp : r.2.arrays[o'.major]? = some (.ints ((m.triples o).map fun e => Int.ofNat e.1)) := by
      simp only [o', h1]
      exact c12
    have hfmt : o'.format = .coo := by
      simp only [o', h1]
      exact c3
    refine ⟨?_, ?_, fun _ => ?_, fun h => absurd h hf, hfmt, ?_, ?_, ?_, ?_, ?_, ?_, ?_⟩
    · rw [h1]
      exact newMatrix_unchanged _ _ _ _ _ _ _ _
    · rw [h1]
      exact c2
    · rw [h1]
      exact newMatrix_fresh (Unchanged.refl m) _ _ _ _ _ _ _
    · simp only [o', h1]
      exact c4
    · simp only [o', h1]
      exact c5
    · simp only [o', h1]
      exact c6
    · exact ⟨(List.getElem?_eq_some_iff.mp hd).1, (List.getElem?_eq_some_iff.mp hi).1, (List.getElem?_eq_some_iff.mp hp).1⟩
    · unfold PyMem.triples
      rw [hfmt]
      simp only
      rw [ints_of hp, ints_of hi, vals_of hd, List.zip_map', List.zip_map', List.map_map]
      refine (List.map_congr_left fun e _ => ?_).trans (List.map_id _)
      simp
    · rw [ints_of hp, vals_of hd, List.length_map, List.length_map]
    · rw [ints_of hi, vals_of hd, List.length_map, List.length_map]

theorem zip_reweighted {A : Type} (g : Nat × Nat × A → A) : ∀ (rows cols : List Int) (data : List A),
    rows.length = data.length → cols.length = data.length →
    (rows.zip (cols.zip (((rows.zip (cols.zip data)).map fun e => (e.1.toNat, e.2.1.toNat, e.2.2)).map g))).map
      (fun e => (e.1.toNat, e.2.1.toNat, e.2.2)) =
    ((rows.zip (cols.zip data)).map fun e => (e.1.toNat, e.2.1.toNat, e.2.2)).map fun e => (e.1, e.2.1, g e)
  | [], _, _, _, _ => by simp
  | _ :: _, [], [], _, _ => by simp
  | r :: rows, c :: cols, v :: data, h1, h2 => by
    have ih := zip_reweighted g rows cols data (by simpa using h1) (by simpa using h2)
    simp only [List.zip_cons_cons, List.map_cons]
    rw [ih]

/-- Lengths that `scipy` checks when a COO matrix is made. -/
def CooLengths (m : PyMem R) (o : SpObject) : Prop :=
  o.format = .coo → (m.ints o.major).length = (m.vals o.data).length ∧ (m.ints o.minor).length = (m.vals o.data).length

theorem reweighted_spec (g : Coo → Nat × Nat × ℝ → ℝ) {m : PyMem ℝ} {x : Nat} (hx : x < m.objects.length)
    (hlen : CooLengths m (m.object x)) (he : ArraysExist m (m.object x)) :
    let r := reweighted (fun X => X.entries.map (g X)) m x
    Unchanged m r.2 ∧ m.objects.length ≤ r.1 ∧ m.arrays.length ≤ (r.2.object r.1).data ∧
    ((m.object x).format ≠ .coo → Fresh m r.2 r.1) ∧
    r.2.triples (r.2.object r.1) =
      (m.triples (m.object x)).map fun e => (e.1, e.2.1, g ⟨(m.object x).nrows, m.triples (m.object x)⟩ e) := by
  intro r
  obtain ⟨a1, a2, a3, a4, a5, a6, a7, a8, a9, a10, a11, a12⟩ := toCoo_spec hx rfl hlen he
  obtain ⟨p, hpdef⟩ : ∃ p, p = m.toCoo x := ⟨_, rfl⟩
  simp only [← hpdef] at a1 a2 a3 a4 a5 a6 a7 a8 a9 a10 a11 a12
  obtain ⟨o, ho⟩ : ∃ o, o = p.2.object p.1 := ⟨_, rfl⟩
  rw [← ho] at a5 a6 a7 a8 a9 a10 a11 a12
  obtain ⟨m2, hm2⟩ : ∃ m2, m2 = (p.2.newObject o).2 := ⟨_, rfl⟩
  have ho2 : m2.object p.2.objects.length = o := by
    rw [hm2]
    exact newObject_object _ _
  have hu2 : Unchanged p.2 m2 := hm2 ▸ newObject_unchanged _ _
  have hA : m2.arrays = p.2.arrays := by rw [hm2]; rfl
  obtain ⟨w, hw⟩ : ∃ w, w = (m2.asCoo o).entries.map (g (m2.asCoo o)) := ⟨_, rfl⟩
  obtain ⟨m3, hm3⟩ : ∃ m3, m3 = (m2.newArray (.vals w)).2 := ⟨_, rfl⟩
  have hu3 : Unchanged m2 m3 := hm3 ▸ newArray_unchanged _ _
  have hr : r = (p.2.objects.length, m3.setObject p.2.objects.length { o with data := m2.arrays.length }) := by
    show reweighted _ m x = _
    unfold reweighted PyMem.cooMatrixOf
    simp only [← hpdef, ← ho]
    have e1 : (p.2.newObject o).1 = p.2.objects.length := rfl
    rw [e1, ← hm2, ho2, ← hw, ← hm3]
    rfl
  have hl := a1.lengths
  have hu : Unchanged m (m3.setObject p.2.objects.length { o with data := m2.arrays.length }) :=
    (a1.trans (hu2.trans hu3)).setObject hl.2 _
  have hlen3 : p.2.objects.length < m3.objects.length := by
    have : m3.objects = p.2.objects ++ [o] := by
      rw [hm3, hm2]
      rfl
    rw [this]
    simp
  have hobj : r.2.object r.1 = { o with data := m2.arrays.length } := by
    rw [hr]
    unfold PyMem.object PyMem.setObject
    simp only
    rw [List.getD_eq_getElem?_getD, List.getElem?_set_self hlen3]
    rfl
  have harr : r.2.arrays = p.2.arrays ++ [.vals w] := by
    rw [hr, ← hA, hm3]
    rfl
  rw [hobj]
  refine ⟨hr ▸ hu, hr ▸ hl.2, ?_, fun hf => ?_, ?_⟩
  · simp only [hA]
    exact hl.1
  · have h1 := a3 hf
    refine ⟨hr ▸ hl.2, ?_, ?_, ?_, ?_⟩
    · rw [hr]
      simp only [PyMem.setObject, List.length_set]
      exact hlen3
    · rw [hobj]
      simp only [hA]
      exact hl.1
    · rw [hobj]
      simp only
      rw [ho]
      exact h1.minor
    · rw [hobj]
      simp only
      rw [ho]
      exact h1.major
  · have hX : m2.asCoo o = ⟨(m.object x).nrows, m.triples (m.object x)⟩ := by
      unfold PyMem.asCoo
      rw [a7, hu2.triples a9, a10]
    have hpm : Unchanged p.2 r.2 := by
      rw [hr]
      exact (hu2.trans hu3).setObject le_rfl _
    have hd : r.2.vals m2.arrays.length = w := by
      refine vals_of ?_
      rw [harr, hA]
      simp
    have key := zip_reweighted (g ⟨(m.object x).nrows, m.triples (m.object x)⟩) (p.2.ints o.major) (p.2.ints o.minor)
      (p.2.vals o.data) a11 a12
    have hT : ((p.2.ints o.major).zip ((p.2.ints o.minor).zip (p.2.vals o.data))).map
        (fun e => (e.1.toNat, e.2.1.toNat, e.2.2)) = m.triples (m.object x) := by
      rw [← a10]
      unfold PyMem.triples
      rw [a5]
    rw [hT] at key
    unfold PyMem.triples
    simp only [a5]
    rw [hpm.ints a9.major, hpm.ints a9.minor, hd, hw, hX]
    exact key

/-- **C60** (`tfidf_weight`, `normalize`, `bm25_weight`): the argument is not changed, the result has new data, and is new
altogether unless the argument is a COO matrix; its triples are those of the value model.  Missing: for a COO argument the
result shares `row` and `col`, see `C60_weights_shared_violated`. -/
theorem C60_weights_partial (K1 B : ℝ) (m : PyMem ℝ) (x : Nat) (hx : x < m.objects.length)
    (hlen : CooLengths m (m.object x)) (he : ArraysExist m (m.object x)) :
    ∀ p ∈ [(tfidfObject m x, tfidfWeight), (normalizeObject m x, normalizeRows), (bm25Object K1 B m x, bm25Weight K1 B)],
      Unchanged m p.1.2 ∧ m.objects.length ≤ p.1.1 ∧ m.arrays.length ≤ (p.1.2.object p.1.1).data ∧
      ((m.object x).format ≠ .coo → Fresh m p.1.2 p.1.1) ∧
      p.1.2.triples (p.1.2.object p.1.1) = (p.2 ⟨(m.object x).nrows, m.triples (m.object x)⟩).entries := by
  intro p hp
  simp only [List.mem_cons, List.not_mem_nil, or_false] at hp
  rcases hp with rfl | rfl | rfl
  · have h := reweighted_spec (fun X e => Real.sqrt e.2.2 * idf X e.2.1) hx hlen he
    have hr : tfidfObject m x = reweighted (fun X => X.entries.map fun e => Real.sqrt e.2.2 * idf X e.2.1) m x := by
      unfold tfidfObject
      congr 1
      funext X
      unfold tfidfWeight
      rw [List.map_map]
      rfl
    simp only [hr]
    exact h
  · have h := reweighted_spec (fun X e => e.2.2 / Real.sqrt (bincountW (X.entries.map fun e => (e.1, e.2.2 ^ 2)) e.1))
      hx hlen he
    have hr : normalizeObject m x = reweighted (fun X => X.entries.map fun e =>
        e.2.2 / Real.sqrt (bincountW (X.entries.map fun e => (e.1, e.2.2 ^ 2)) e.1)) m x := by
      unfold normalizeObject
      congr 1
      funext X
      unfold normalizeRows
      rw [List.map_map]
      rfl
    simp only [hr]
    exact h
  · have h := reweighted_spec (fun X e => e.2.2 * (K1 + 1) / (K1 * lengthNorm B X e.1 + e.2.2) * idf X e.2.1) hx hlen he
    have hr : bm25Object K1 B m x = reweighted (fun X => X.entries.map fun e =>
        e.2.2 * (K1 + 1) / (K1 * lengthNorm B X e.1 + e.2.2) * idf X e.2.1) m x := by
      unfold bm25Object
      congr 1
      funext X
      unfold bm25Weight
      rw [List.map_map]
      rfl
    simp only [hr]
    exact h

/-! ## Queries -/

/-- What `_filter_items_from_sparse_matrix` keeps. -/
theorem filterSparse_eq {m : PyMem R} {items x : Nat} (hi : items < m.arrays.length) (hf : (m.object x).format ≠ .coo) :
    ∃ m', Unchanged m m' ∧ filterSparse m items x = m'.newCsr (m.object x).float32 (m.object x).nrows (m.object x).ncols
      (cooToCsr (m.object x).nrows (((m.triples (m.object x)).map fun e => (e.1, clippedPosition (m.ints items) e.2.1,
        if (m.ints items)[clippedPosition (m.ints items) e.2.1]? = some (e.2.1 : Int) then e.2.2 else 0)).filter
          fun e => e.2.2 ≠ 0)) := by
  obtain ⟨o, ho⟩ : ∃ o, o = m.object x := ⟨_, rfl⟩
  obtain ⟨es, hes⟩ : ∃ es, es = m.triples o := ⟨_, rfl⟩
  have h1 : m.toCoo x = m.newCoo o.float32 o.nrows o.ncols es := by
    rw [← ho] at hf
    unfold PyMem.toCoo
    simp only [← ho, ← hes]
  obtain ⟨n1, n2⟩ := newMatrix_spec m .coo o.float32 o.nrows o.ncols
      (es.map fun e => e.2.2) (es.map fun e => Int.ofNat e.2.1) (es.map fun e => Int.ofNat e.1)
  have hits : ∀ t u, PyMem.ints (⟨m.arrays ++ t, u⟩ : PyMem R) items = m.ints items := by
    intro t u
    unfold PyMem.ints
    simp only
    rw [List.getElem?_append_left hi]
  obtain ⟨its, hitsdef⟩ : ∃ its, its = m.ints items := ⟨_, rfl⟩
  rw [← ho, ← hes]
  have e0 : m.toCoo x = (m.objects.length, ⟨m.arrays ++ [.vals (es.map fun e => e.2.2),
      .ints (es.map fun e => Int.ofNat e.2.1), .ints (es.map fun e => Int.ofNat e.1)],
      m.objects ++ [⟨.coo, o.float32, o.nrows, o.ncols, m.arrays.length, m.arrays.length + 1, m.arrays.length + 2⟩]⟩) := by
    rw [h1]
    exact Prod.ext n1 n2
  unfold filterSparse
  simp only [e0, hits, ← hitsdef]
  have hz : ∀ f : Int × R → R, ((es.map fun e => (e.2.1 : Int)).zip (es.map fun e => e.2.2)).map f =
      es.map fun e => f ((e.2.1 : Int), e.2.2) := by
    intro f
    rw [List.zip_map', List.map_map]
    rfl
  have hz3 : ∀ (l : List (Nat × Nat × R)) (a b : Nat × Nat × R → Int) (c : Nat × Nat × R → R),
      (l.map a).zip ((l.map b).zip (l.map c)) = l.map fun e => (a e, b e, c e) := by
    intro l a b c
    rw [List.zip_map', List.zip_map']
  simp [PyMem.object, PyMem.ints, PyMem.vals, PyMem.setArray, PyMem.newArray, PyMem.setObject, PyMem.triples, hz, hz3,
    PyMem.toCsr, Function.comp_def]
  exact ⟨_, ⟨List.prefix_append _ _, List.prefix_append _ _⟩, rfl⟩

theorem sorted_countP : ∀ {l : List Int}, l.Pairwise (· ≤ ·) → ∀ (c : Int) {q : Nat} {v : Int}, l[q]? = some v →
    (v < c ↔ q < l.countP (· < c))
  | a :: l, hp, c, q, v, h => by
    rw [List.pairwise_cons] at hp
    rw [List.countP_cons]
    cases q with
    | zero =>
      simp only [List.getElem?_cons_zero, Option.some.injEq] at h
      subst h
      by_cases hac : a < c
      · simp [hac]
      · have : l.countP (· < c) = 0 := by
          rw [List.countP_eq_zero]
          intro b hb
          have := hp.1 b hb
          simp only [decide_eq_true_eq]
          omega
        simp [hac, this]
    | succ q =>
      simp only [List.getElem?_cons_succ] at h
      have ih := sorted_countP hp.2 c h
      have hav := hp.1 v (List.mem_of_getElem? h)
      by_cases hac : a < c
      · simp only [hac, decide_true, if_true]
        rw [ih]
        omega
      · have : l.countP (· < c) = 0 := by
          rw [List.countP_eq_zero]
          intro b hb
          have := hp.1 b hb
          simp only [decide_eq_true_eq]
          omega
        simp only [hac, decide_false, this]
        constructor
        · intro; omega
        · simp

/-- The clipped position of a column is where it is, if anywhere. -/
theorem clippedPosition_iff {l : List Int} (hl : l.Pairwise (· ≤ ·)) (c : Int) (p : Nat) :
    (l[clippedPosition l c]? = some c ∧ p = clippedPosition l c) ↔ (l[p]? = some c ∧ ∀ q < p, l[q]? ≠ some c) := by
  unfold clippedPosition
  constructor
  · rintro ⟨h, rfl⟩
    refine ⟨h, fun q hq hc => ?_⟩
    have h1 := sorted_countP hl c hc
    omega
  · rintro ⟨h, hq⟩
    have h1 := sorted_countP hl c h
    have h2 := (List.getElem?_eq_some_iff.mp h).1
    have hk : l.countP (· < c) = p := by
      by_contra hne
      have hlt : l.countP (· < c) < p := by omega
      obtain ⟨k, hk⟩ : ∃ k, k = l.countP (· < c) := ⟨_, rfl⟩
      rw [← hk] at hlt
      have hkl : k < l.length := by omega
      have h3 := sorted_countP hl c (List.getElem?_eq_getElem hkl)
      rw [← hk] at h3
      have h4 : l[k] ≤ l[p] := List.pairwise_iff_getElem.mp hl k p hkl h2 hlt
      have h5 : l[p] = c := (List.getElem?_eq_some_iff.mp h).2
      exact hq k hlt (List.getElem?_eq_some_iff.mpr ⟨hkl, by omega⟩)
    have : min (l.countP (· < c)) (l.length - 1) = p := by omega
    rw [this]
    exact ⟨h, rfl⟩

theorem stored_flatMap (rows : SpRows R) (i p : Nat) :
    (∃ v, (i, p, v) ∈ rows.zipIdx.flatMap fun q => q.1.map fun e => (q.2, e.1, e.2)) ↔ Spec.StoredAt rows i p := by
  unfold Spec.StoredAt Spec.Stored
  refine exists_congr fun v => ?_
  rw [List.mem_flatMap]
  constructor
  · rintro ⟨q, hq, hm⟩
    rw [List.mem_map] at hm
    obtain ⟨e, he, heq⟩ := hm
    simp only [Prod.mk.injEq] at heq
    obtain ⟨rfl, rfl, rfl⟩ := heq
    rw [List.mem_zipIdx_iff_getElem?] at hq
    rw [List.getD_eq_getElem?_getD, hq]
    exact he
  · intro h
    by_cases hi : i < rows.length
    · rw [List.getD_eq_getElem?_getD, List.getElem?_eq_getElem hi] at h
      refine ⟨(rows[i], i), ?_, List.mem_map.mpr ⟨_, h, rfl⟩⟩
      rw [List.mem_zipIdx_iff_getElem?]
      exact List.getElem?_eq_getElem hi
    · rw [List.getD_eq_getElem?_getD, List.getElem?_eq_none (by omega)] at h
      simp at h

/-- `items` is copied and the copy sorted. -/
theorem sortedItems_spec (m : PyMem R) (items : ItemsArg) :
    let r := sortedItems m items
    Unchanged m r.2 ∧ r.1 = m.arrays.length ∧ r.1 < r.2.arrays.length ∧ r.2.objects = m.objects ∧
    r.2.ints r.1 = (items.values m).insertionSort (· ≤ ·) := by
  intro r
  have hr : r = (m.arrays.length, ((m.newArray (.ints (items.values m))).2).setArray m.arrays.length
      (.ints ((items.values m).insertionSort (· ≤ ·)))) := by
    show sortedItems m items = _
    unfold sortedItems PyMem.newArray
    simp [PyMem.ints]
  rw [hr]
  refine ⟨(newArray_unchanged _ _).setArray le_rfl _, rfl, ?_, rfl, ?_⟩
  · simp [PyMem.newArray, PyMem.setArray]
  · simp [PyMem.newArray, PyMem.setArray, PyMem.ints]

/-- **C60** (`recommend` with `items`): neither the list or array of items nor the matrix of liked items changes, although
the items are sorted and the entries of the matrix zeroed and moved in place.  The items used are the argument's in order,
and a position is filtered exactly if the user likes the item that comes first there. -/
theorem C60_recommend_items (m : PyMem R) (x : Nat) (items : ItemsArg) (hx : x < m.objects.length)
    (hv : ValidCsr m (m.object x)) :
    ∃ a y m', recommendPrepare m x true (some items) = ((some a, some y), m') ∧ Unchanged m m' ∧
      m.arrays.length ≤ a ∧ Fresh m m' y ∧ (m'.ints a).Perm (items.values m) ∧ (m'.ints a).Pairwise (· ≤ ·) ∧
      ∀ i < (m.object x).nrows, ∀ p, (∃ v, (i, p, v) ∈ m'.triples (m'.object y)) ↔
        ∃ (c : Nat) (v : R), (i, c, v) ∈ m.triples (m.object x) ∧ v ≠ 0 ∧ (m'.ints a)[p]? = some (c : Int) ∧
          ∀ q < p, (m'.ints a)[q]? ≠ some (c : Int) := by
  obtain ⟨s1, s2, s3, s4, s5⟩ := sortedItems_spec m items
  obtain ⟨s, hs⟩ : ∃ s, s = sortedItems m items := ⟨_, rfl⟩
  simp only [← hs] at s1 s2 s3 s4 s5
  have hobj : s.2.object x = m.object x := s1.object hx
  have htri : s.2.triples (s.2.object x) = m.triples (m.object x) := by rw [hobj, s1.triples hv.exist]
  obtain ⟨m1, h1, h2⟩ := filterSparse_eq (m := s.2) (items := s.1) (x := x) s3 (by rw [hobj, hv.format]; decide)
  obtain ⟨n1, n2, n3, n4, -, -, -, -⟩ := newCsr_spec m1 (s.2.object x).float32 (s.2.object x).nrows (s.2.object x).ncols
      (cooToCsr (s.2.object x).nrows (((s.2.triples (s.2.object x)).map fun e =>
        (e.1, clippedPosition (s.2.ints s.1) e.2.1,
        if (s.2.ints s.1)[clippedPosition (s.2.ints s.1) e.2.1]? = some (e.2.1 : Int) then e.2.2 else 0)).filter
          fun e => e.2.2 ≠ 0))
  have n5 := newCsr_triples m1 (s.2.object x).float32 (s.2.object x).nrows (s.2.object x).ncols
      (cooToCsr (s.2.object x).nrows (((s.2.triples (s.2.object x)).map fun e =>
        (e.1, clippedPosition (s.2.ints s.1) e.2.1,
        if (s.2.ints s.1)[clippedPosition (s.2.ints s.1) e.2.1]? = some (e.2.1 : Int) then e.2.2 else 0)).filter
          fun e => e.2.2 ≠ 0))
  rw [← h2] at n1 n2 n3 n4 n5
  obtain ⟨f, hf⟩ : ∃ f, f = filterSparse s.2 s.1 x := ⟨_, rfl⟩
  rw [← hf] at n1 n2 n3 n4 n5
  have hu : Unchanged m f.2 := s1.trans (h1.trans n2)
  have hia : f.2.ints s.1 = s.2.ints s.1 := (h1.trans n2).ints s3
  have hsorted : (s.2.ints s.1).Pairwise (· ≤ ·) := by
    rw [s5]
    exact List.pairwise_insertionSort _ _
  refine ⟨s.1, f.1, f.2, ?_, hu, s2.ge, n3.weaken (s1.trans h1), ?_, ?_, ?_⟩
  · unfold recommendPrepare
    simp only [← hs, ← hf, if_true]
  · rw [hia, s5]
    exact List.perm_insertionSort _ _
  · rw [hia]
    exact hsorted
  · intro i hi p
    rw [n5, hia, hobj, s1.triples hv.exist]
    have hst := storedAt_cooToCsr (m.object x).nrows (((m.triples (m.object x)).map fun e =>
        (e.1, clippedPosition (s.2.ints s.1) e.2.1,
        if (s.2.ints s.1)[clippedPosition (s.2.ints s.1) e.2.1]? = some (e.2.1 : Int) then e.2.2 else 0)).filter
          fun e => e.2.2 ≠ 0) hi p
    rw [stored_flatMap, hst]
    constructor
    · rintro ⟨v, hm⟩
      rw [List.mem_filter, List.mem_map] at hm
      obtain ⟨⟨e, he, heq⟩, hnz⟩ := hm
      simp only [Prod.mk.injEq] at heq
      obtain ⟨rfl, rfl, rfl⟩ := heq
      simp only [ne_eq, decide_eq_true_eq, ite_eq_right_iff, Classical.not_imp] at hnz
      have := (clippedPosition_iff hsorted (e.2.1 : Int) _).mp ⟨hnz.1, rfl⟩
      exact ⟨e.2.1, e.2.2, he, hnz.2, this.1, this.2⟩
    · rintro ⟨c, v, hm, hnz, h3, h4⟩
      have := (clippedPosition_iff hsorted (c : Int) p).mpr ⟨h3, h4⟩
      refine ⟨v, ?_⟩
      rw [List.mem_filter, List.mem_map]
      refine ⟨⟨_, hm, ?_⟩, by simpa using hnz⟩
      simp only
      rw [if_pos this.1, ← this.2]

/-- **C60** (`recommend` in the other cases). -/
theorem C60_recommend_plain (m : PyMem R) (x : Nat) (items : ItemsArg) :
    recommendPrepare m x true none = ((none, some x), m) ∧ recommendPrepare m x false none = ((none, none), m) ∧
    ∃ a m', recommendPrepare m x false (some items) = ((some a, none), m') ∧ Unchanged m m' ∧ m.arrays.length ≤ a ∧
      (m'.ints a).Perm (items.values m) ∧ (m'.ints a).Pairwise (· ≤ ·) := by
  refine ⟨rfl, rfl, ?_⟩
  obtain ⟨s1, s2, s3, s4, s5⟩ := sortedItems_spec m items
  refine ⟨(sortedItems m items).1, (sortedItems m items).2, rfl, s1, s2.ge, ?_, ?_⟩
  · rw [s5]
    exact List.perm_insertionSort _ _
  · rw [s5]
    exact List.pairwise_insertionSort _ _

/-! ## Splits -/

theorem mapData_spec {m : PyMem R} {o : SpObject} (g : R → R) (h : ValidCsr m o) :
    (m.setArray o.data (.vals ((m.vals o.data).map g))).slices o =
      (m.slices o).map (fun row => row.map fun e => (e.1, g e.2)) ∧
    (m.setArray o.data (.vals ((m.vals o.data).map g))).arrays.length = m.arrays.length := by
  obtain ⟨hmd, hjd⟩ := h.distinct
  have he := h.exist
  refine ⟨?_, by simp [PyMem.setArray]⟩
  have e1 : (m.setArray o.data (.vals ((m.vals o.data).map g))).vals o.data = (m.vals o.data).map g := by
    refine vals_of ?_
    simp [PyMem.setArray, he.data]
  have e2 : ∀ r, r ≠ o.data → (m.setArray o.data (.vals ((m.vals o.data).map g))).ints r = m.ints r := by
    intro r hr
    unfold PyMem.ints PyMem.setArray
    simp only
    rw [List.getElem?_set_ne (Ne.symm hr)]
  unfold PyMem.slices
  rw [e1, e2 _ hmd, e2 _ hjd, List.zip_map_right, slicesAt_map]
  rfl

theorem eliminateZeros_spec {m : PyMem R} {x : Nat} {o : SpObject} (ho : m.object x = o) (h : o.minor ≠ o.major ∧
    o.minor ≠ o.data ∧ o.major ≠ o.data) (he : ArraysExist m o) :
    (m.eliminateZeros x).slices o = (m.slices o).map (fun row => row.filter fun e => e.2 ≠ 0) ∧
    (m.eliminateZeros x).objects = m.objects := by
  obtain ⟨rows, hr⟩ : ∃ rows, rows = (m.slices o).map fun row => row.filter fun e => e.2 ≠ 0 := ⟨_, rfl⟩
  have e : m.eliminateZeros x = ((m.setArray o.minor (.ints (rows.flatten.map Prod.fst))).setArray o.data
      (.vals (rows.flatten.map Prod.snd))).setArray o.major (.ints (((rows.map List.length).scanl (· + ·) 0).map Int.ofNat)) := by
    unfold PyMem.eliminateZeros
    simp only [ho, ← hr]
  rw [e, ← hr]
  refine ⟨?_, rfl⟩
  have e1 := vals_of (R := R) (m := ((m.setArray o.minor (.ints (rows.flatten.map Prod.fst))).setArray o.data
      (.vals (rows.flatten.map Prod.snd))).setArray o.major (.ints (((rows.map List.length).scanl (· + ·) 0).map Int.ofNat)))
      (r := o.data) (l := rows.flatten.map Prod.snd) (by
        unfold PyMem.setArray
        simp only
        rw [List.getElem?_set_ne h.2.2, List.getElem?_set_self (by simpa using he.data)])
  have e2 := ints_of (R := R) (m := ((m.setArray o.minor (.ints (rows.flatten.map Prod.fst))).setArray o.data
      (.vals (rows.flatten.map Prod.snd))).setArray o.major (.ints (((rows.map List.length).scanl (· + ·) 0).map Int.ofNat)))
      (r := o.minor) (l := rows.flatten.map Prod.fst) (by
        unfold PyMem.setArray
        simp only
        rw [List.getElem?_set_ne h.1.symm, List.getElem?_set_ne h.2.1.symm, List.getElem?_set_self he.minor])
  have e3 := ints_of (R := R) (m := ((m.setArray o.minor (.ints (rows.flatten.map Prod.fst))).setArray o.data
      (.vals (rows.flatten.map Prod.snd))).setArray o.major (.ints (((rows.map List.length).scanl (· + ·) 0).map Int.ofNat)))
      (r := o.major) (l := ((rows.map List.length).scanl (· + ·) 0).map Int.ofNat) (by
        unfold PyMem.setArray
        simp only
        rw [List.getElem?_set_self (by simpa using he.major)])
  unfold PyMem.slices
  rw [e1, e2, e3, List.map_map]
  rw [show (Int.toNat ∘ Int.ofNat : Nat → Nat) = id from funext fun q => Int.toNat_natCast q, List.map_id, List.zip_map']
  rw [show rows.flatten.map (fun a => (a.1, a.2)) = rows.flatten from List.map_id' _]
  simpa using slicesAt_scanl rows []

/-- An object is the given CSR matrix. -/
structure Holds (m : PyMem R) (y : Nat) (M : Csr R) : Prop where
  format : (m.object y).format = .csr
  nrows : (m.object y).nrows = M.nrows
  ncols : (m.object y).ncols = M.ncols
  rows : m.slices (m.object y) = M.rows.map fun row => row.map fun e => (Int.ofNat e.1, e.2)

/-- **C60** (`train_test_split`): the argument is not changed although `test` is modified in place, both results are new and
share nothing with the argument or each other, and they are the matrices of the value model. -/
theorem C60_split {Gen : Type} (I : RngImpl R Gen) (P : Process R Gen) (p : R) (rs : RandomState Gen) (m : PyMem R) (x : Nat)
    (hx : x < m.objects.length) (hlen : (m.object x).format = .coo →
      (m.ints (m.object x).major).length = (m.vals (m.object x).data).length ∧
      (m.ints (m.object x).minor).length = (m.vals (m.object x).data).length) (he : ArraysExist m (m.object x)) :
    let r := splitObjects I P m x p rs
    Unchanged m r.2 ∧
    match trainTestSplit I P ⟨(m.object x).nrows, (m.object x).ncols, m.triples (m.object x)⟩ p rs with
    | .error e => r.1 = .error e
    | .ok (train, test) => ∃ a b, r.1 = .ok (a, b) ∧ Fresh m r.2 a ∧ Fresh m r.2 b ∧ Holds r.2 a train ∧ Holds r.2 b test ∧
        ∀ s ∈ [(r.2.object a).data, (r.2.object a).minor, (r.2.object a).major],
        ∀ t ∈ [(r.2.object b).data, (r.2.object b).minor, (r.2.object b).major], s ≠ t := by
  intro r
  obtain ⟨a1, a2, a3, a4, a5, a6, a7, a8, a9, a10, a11, a12⟩ := toCoo_spec hx rfl hlen he
  obtain ⟨q, hq⟩ : ∃ q, q = m.toCoo x := ⟨_, rfl⟩
  simp only [← hq] at a1 a2 a3 a4 a5 a6 a7 a8 a9 a10 a11 a12
  have hcount : (q.2.vals (q.2.object q.1).data).length = (m.triples (m.object x)).length := by
    rw [← a10]
    unfold PyMem.triples
    rw [a5]
    simp [a11, a12]
  unfold trainTestSplit
  cases hg : checkRandomState I P rs with
  | error e =>
    have hr : r = (.error e, q.2) := by
      show splitObjects I P m x p rs = _
      unfold splitObjects
      simp only [← hq, hg]
    simp only [bind, Except.bind]
    rw [hr]
    exact ⟨a1, rfl⟩
  | ok g =>
    simp only [bind, Except.bind, pure, Except.pure]
    obtain ⟨es, hes⟩ : ∃ es, es = m.triples (m.object x) := ⟨_, rfl⟩
    obtain ⟨tr, htr⟩ : ∃ tr, tr = cooToCsr (m.object x).nrows (((es.zip (I.random g es.length)).filter
      fun e => decide (e.2 < p)).map Prod.fst) := ⟨_, rfl⟩
    obtain ⟨te, hte⟩ : ∃ te, te = cooToCsr (m.object x).nrows (((es.zip (I.random g es.length)).filter
      fun e => decide (p ≤ e.2)).map Prod.fst) := ⟨_, rfl⟩
    simp only [Ratings.toCsr, ← hes, ← htr, ← hte]
    obtain ⟨T, hT⟩ : ∃ T, T = q.2.newCsr (m.object x).float32 (m.object x).nrows (m.object x).ncols tr := ⟨_, rfl⟩
    obtain ⟨S, hS⟩ : ∃ S, S = T.2.newCsr (m.object x).float32 (m.object x).nrows (m.object x).ncols te := ⟨_, rfl⟩
    obtain ⟨t1, t2, t3, t4, t5, t6, t7, t8⟩ := newCsr_spec q.2 (m.object x).float32 (m.object x).nrows (m.object x).ncols tr
    obtain ⟨s1, s2, s3, s4, s5, s6, s7, s8⟩ := newCsr_spec T.2 (m.object x).float32 (m.object x).nrows (m.object x).ncols te
    rw [← hT] at t1 t2 t3 t4 t5 t6 t7 t8
    rw [← hS] at s1 s2 s3 s4 s5 s6 s7 s8
    obtain ⟨o, ho⟩ : ∃ o, o = S.2.object S.1 := ⟨_, rfl⟩
    rw [← ho] at s4 s5 s6 s7 s8
    obtain ⟨m3, hm3⟩ : ∃ m3, m3 = S.2.setArray o.data (.vals ((S.2.vals o.data).map fun v => if v < 0 then 0 else v)) :=
      ⟨_, rfl⟩
    have hr : r = (.ok (T.1, S.1), m3.eliminateZeros S.1) := by
      show splitObjects I P m x p rs = _
      unfold splitObjects
      simp only [← hq, hg, a6, a7, a8, a10, hcount, ← hes, ← htr, ← hte, ← hT, ← hS, ← ho, ← hm3]
    have hob3 : m3.object S.1 = o := by
      rw [hm3, ho]
      rfl
    obtain ⟨d1, d2⟩ := mapData_spec (fun v => if v < 0 then 0 else v) s4
    rw [← hm3] at d1 d2
    have hdist := s4.distinct
    have hex : ArraysExist m3 o := ⟨by rw [d2]; exact s4.exist.data, by rw [d2]; exact s4.exist.minor,
      by rw [d2]; exact s4.exist.major⟩
    obtain ⟨z1, z2⟩ := eliminateZeros_spec hob3 ⟨s4.other, hdist.1, hdist.2⟩ hex
    -- everything older than `test` is untouched
    have huT : Unchanged T.2 (m3.eliminateZeros S.1) := by
      have h3 : Unchanged T.2 m3 := hm3 ▸ s2.setArray (ho ▸ s3.data) _
      unfold PyMem.eliminateZeros
      simp only [hob3]
      exact ((h3.setArray (ho ▸ s3.minor) _).setArray (ho ▸ s3.data) _).setArray (ho ▸ s3.major) _
    have hu : Unchanged m (m3.eliminateZeros S.1) := a1.trans (t2.trans huT)
    have hobT : (m3.eliminateZeros S.1).object T.1 = T.2.object T.1 := huT.object t3.exist
    have hobS : (m3.eliminateZeros S.1).object S.1 = o := by
      unfold PyMem.object
      rw [z2]
      exact hob3
    have hlenS : S.1 < (m3.eliminateZeros S.1).objects.length := by
      rw [z2, hm3]
      exact s3.exist
    have hFS : Fresh T.2 (m3.eliminateZeros S.1) S.1 :=
      ⟨s3.new, hlenS, by rw [hobS, ho]; exact s3.data, by rw [hobS, ho]; exact s3.minor, by rw [hobS, ho]; exact s3.major⟩
    rw [hr]
    refine ⟨hu, T.1, S.1, rfl, (t3.of_unchanged huT).weaken a1, hFS.weaken (a1.trans t2), ?_, ?_, ?_⟩
    · refine ⟨?_, ?_, ?_, ?_⟩
      · rw [hobT, t4.format]
      · rw [hobT, t6]
      · rw [hobT, t7]
      · rw [hobT, huT.slices t4.exist, t8]
    · refine ⟨?_, ?_, ?_, ?_⟩
      · rw [hobS, s4.format]
      · rw [hobS, s6]
        rfl
      · rw [hobS, s7]
        rfl
      · rw [hobS, z1, d1, s8]
        unfold clipNegative
        simp only [List.map_map]
        refine List.map_congr_left fun row _ => ?_
        simp only [Function.comp_def, List.filter_map, List.map_map]
    · rw [hobT, hobS]
      have l1 := t4.exist.data
      have l2 := t4.exist.minor
      have l3 := t4.exist.major
      have k1 := s3.data
      have k2 := s3.minor
      have k3 := s3.major
      rw [← ho] at k1 k2 k3
      intro s hs t ht
      simp only [List.mem_cons, List.not_mem_nil, or_false] at hs ht
      rcases hs with rfl | rfl | rfl <;> rcases ht with rfl | rfl | rfl <;> omega

/-! ## Where the code does touch the caller's data -/

/-- **C60 violated** (order): training on an unsorted CSR matrix of single precision numbers reorders the caller's arrays. -/
theorem C60_order_violated (m : PyMem R) (x : Nat) (hx : x < m.objects.length) (hv : ValidCsr m (m.object x))
    (hf : (m.object x).float32 = true) (hs : m.hasSortedIndices x = false) :
    ¬ Unchanged m (bprPrepare true m x).2 ∧ ¬ Unchanged m (gpuBprPrepare true m x).2 ∧ ¬ Unchanged m (lmfPrepare m x).2 := by
  have key : ∀ m' : PyMem R, m'.hasSortedIndices x = true → ¬ Unchanged m m' := by
    intro m' h1 h2
    rw [hasSorted_unchanged h2 hx hv.exist, hs] at h1
    cases h1
  have e1 : toFloat32 m x = (x, m) := by
    unfold toFloat32
    rw [if_pos hf]
  have e2 : m.toCsr x = (x, m) := by
    unfold PyMem.toCsr
    simp only [hv.format]
  refine ⟨key _ ?_, key _ ?_, key _ ?_⟩
  · have h := (C60_bpr_partial true m x hx hv.exist fun _ => hv).sorted rfl
    have e : (bprPrepare true m x).1 = x := by
      unfold bprPrepare PyMem.checkCsr
      simp only [e1, e2]
    rwa [e] at h
  · have h := (C60_gpu_bpr_partial true m x hx hv.exist fun _ => hv).sorted rfl
    have e : (gpuBprPrepare true m x).1 = x := by
      unfold gpuBprPrepare PyMem.checkCsr
      simp only [e1, e2]
    rwa [e] at h
  · have h := (C60_lmf_partial m x hx hv.exist fun _ => hv).1.sorted rfl
    have e : (lmfPrepare m x).1.1 = x := by
      have e0 : (lmfPrepare m x).1.1 = ((toFloat32 m x).2.toCsr (toFloat32 m x).1).1 := rfl
      rw [e0, e1, e2]
    rw [e] at h
    exact h

/-- A rating matrix `X` (object 0) with the unsorted row `[(1, 5), (0, 1)]`, and the matrix of ones (object 1) that
`csr_matrix((np.ones(2), X.indices, X.indptr))` makes: it shares `indices` and `indptr` with `X`. -/
def sharingMem : PyMem Rat :=
  ⟨[.vals [5, 1], .ints [1, 0], .ints [0, 2], .vals [1, 1]],
    [⟨.csr, true, 1, 2, 0, 1, 2⟩, ⟨.csr, true, 1, 2, 3, 1, 2⟩]⟩

/-- **C60 violated** (sharing): training on the matrix of ones changes the cells of the ratings `X`, which were not passed:
the rating 5 moves from column 1 to column 0. -/
theorem C60_shared_violated :
    sharingMem.triples (sharingMem.object 0) = [(0, 1, 5), (0, 0, 1)] ∧
    ∀ m' ∈ [(bprPrepare true sharingMem 1).2, (gpuBprPrepare true sharingMem 1).2, (lmfPrepare sharingMem 1).2],
      m'.triples (m'.object 0) = [(0, 0, 5), (0, 1, 1)] := by
  decide +kernel

/-- The matrix of ones is valid and within the hypotheses of the theorems above. -/
example : ValidCsr sharingMem (sharingMem.object 1) ∧ sharingMem.hasSortedIndices 1 = false ∧
    ¬ Unchanged sharingMem (bprPrepare true sharingMem 1).2 := by
  have hv : ValidCsr sharingMem (sharingMem.object 1) :=
    ⟨rfl, ⟨_, rfl⟩, ⟨_, rfl⟩, ⟨_, rfl⟩, by decide, rfl, by decide, by decide, by decide⟩
  have hs : sharingMem.hasSortedIndices 1 = false := by decide +kernel
  exact ⟨hv, hs, (C60_order_violated _ 1 (by decide) hv rfl hs).1⟩

/-- Training on the unsorted ratings themselves: the same cells, in order. -/
example : (bprPrepare true sharingMem 0).2.triples (sharingMem.object 0) = [(0, 0, 1), (0, 1, 5)] ∧
    (lmfPrepare sharingMem 0).2.triples ((lmfPrepare sharingMem 0).2.object (lmfPrepare sharingMem 0).1.2) =
      [(0, 0, 1), (1, 0, 5)] := by
  decide +kernel

/-- Without `verify_negative_samples` nothing is sorted; double precision is copied. -/
example : (bprPrepare false sharingMem 0).2 = sharingMem ∧
    let m : PyMem Rat := ⟨sharingMem.arrays, [⟨.csr, false, 1, 2, 0, 1, 2⟩]⟩
    let r := bprPrepare true m 0
    r.2.arrays = m.arrays ++ [.vals [1, 5], .ints [0, 1], .ints [0, 2]] ∧ r.1 = 1 := by
  decide +kernel

/-- ALS with `alpha = 2` scales a copy. -/
example : (alsPrepare 2 sharingMem 0).2.arrays.take 4 = sharingMem.arrays ∧
    (alsPrepare 2 sharingMem 0).2.triples ((alsPrepare 2 sharingMem 0).2.object (alsPrepare 2 sharingMem 0).1.1) =
      [(0, 1, 10), (0, 0, 2)] := by
  decide +kernel

/-- `recommend` for items `[7, 0, 1]` given as an array (number 0), to a user who likes 1 and 5 and has a stored zero at 0:
the items are sorted in a copy, only position 1 (item 1) is filtered. -/
example :
    let m : PyMem Rat := ⟨[.ints [7, 0, 1], .vals [2, 3, 0], .ints [1, 5, 0], .ints [0, 3]], [⟨.csr, true, 1, 8, 1, 2, 3⟩]⟩
    let r := recommendPrepare m 0 true (some (.array 0))
    r.2.arrays.take 4 = m.arrays ∧ (r.1.1.map r.2.ints) = some [0, 1, 7] ∧
    (r.1.2.map fun y => r.2.triples (r.2.object y)) = some [(0, 1, 2)] := by
  decide +kernel

/-- `train_test_split` of a CSR matrix with a negative rating in the test set: the rating is dropped from the copy only. -/
example :
    let I : RngImpl Rat Unit := ⟨fun _ => (), fun _ _ => [1 / 2, 9 / 10, 9 / 10], fun _ _ _ => []⟩
    let m : PyMem Rat := ⟨[.vals [2, -3, 4], .ints [1, 0, 2], .ints [0, 1, 3]], [⟨.csr, true, 2, 3, 0, 1, 2⟩]⟩
    let r := splitObjects I ⟨(), fun _ => []⟩ m 0 (4 / 5) (.seed 1)
    r.2.arrays.take 3 = m.arrays ∧ (match r.1 with
      | .ok (a, b) => some (r.2.triples (r.2.object a), r.2.triples (r.2.object b))
      | .error _ => none) = some ([(0, 1, 2)], [(1, 2, 4)]) := by
  decide +kernel

/-- **C60 violated** (weights): the result of `tfidf_weight`, `normalize` and `bm25_weight` on a COO matrix is another object,
but its `row` and `col` are the argument's; writing to them writes to the argument. -/
theorem C60_weights_shared_violated (K1 B : ℝ) (m : PyMem ℝ) (x : Nat) (hf : (m.object x).format = .coo) :
    ∀ r ∈ [tfidfObject m x, normalizeObject m x, bm25Object K1 B m x],
      (r.2.object r.1).minor = (m.object x).minor ∧ (r.2.object r.1).major = (m.object x).major ∧
      r.1 = m.objects.length := by
  have key : ∀ w : Coo → List ℝ, let r := reweighted w m x
      (r.2.object r.1).minor = (m.object x).minor ∧ (r.2.object r.1).major = (m.object x).major ∧
      r.1 = m.objects.length := by
    intro w r
    have hr : r = reweighted w m x := rfl
    unfold reweighted PyMem.cooMatrixOf PyMem.toCoo at hr
    simp only [hf] at hr
    rw [hr]
    simp [PyMem.newObject, PyMem.newArray, PyMem.setObject, PyMem.object]
  intro r hr
  simp only [List.mem_cons, List.not_mem_nil, or_false] at hr
  rcases hr with rfl | rfl | rfl <;> exact key _

/-- `tfidf_weight` of a COO matrix: the stored values of the argument stay, those of the result are new. -/
example : let m : PyMem ℝ := ⟨[.vals [4, 1], .ints [1, 0], .ints [0, 1]], [⟨.coo, true, 2, 2, 0, 1, 2⟩]⟩
    let r := tfidfObject m 0
    Unchanged m r.2 ∧ r.2.triples (r.2.object r.1) = [(0, 1, Real.sqrt 4 * idf ⟨2, [(0, 1, 4), (1, 0, 1)]⟩ 1),
      (1, 0, Real.sqrt 1 * idf ⟨2, [(0, 1, 4), (1, 0, 1)]⟩ 0)] := by
  intro m r
  have h := C60_weights_partial 100 (4 / 5) m 0 (by simp [m]) (fun _ => ⟨rfl, rfl⟩)
    ⟨by simp [m, PyMem.object], by simp [m, PyMem.object], by simp [m, PyMem.object]⟩ _ (List.mem_cons_self)
  exact ⟨h.1, h.2.2.2.2⟩

end Implicit

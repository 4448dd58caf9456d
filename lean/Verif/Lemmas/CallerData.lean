import Verif.Spec.CallerData
import Verif.Lemmas.Dataset
import Verif.Lemmas.Split
import Mathlib.Data.List.Sort
import Mathlib.Tactic.Linarith
/-!
# Lemmas about memory
-/

set_option linter.unusedSectionVars false

namespace Implicit

variable {R : Type}

open Spec PyMem

namespace Spec.Unchanged

theorem refl (m : PyMem R) : Unchanged m m := ⟨List.prefix_rfl, List.prefix_rfl⟩

theorem trans {a b c : PyMem R} (h : Unchanged a b) (h' : Unchanged b c) : Unchanged a c :=
  ⟨h.arrays.trans h'.arrays, h.objects.trans h'.objects⟩

theorem getArray {m m' : PyMem R} (h : Unchanged m m') {r : Nat} (hr : r < m.arrays.length) :
    m'.arrays[r]? = m.arrays[r]? := by
  obtain ⟨t, ht⟩ := h.arrays
  rw [← ht, List.getElem?_append_left hr]

theorem ints {m m' : PyMem R} (h : Unchanged m m') {r : Nat} (hr : r < m.arrays.length) : m'.ints r = m.ints r := by
  unfold PyMem.ints
  rw [h.getArray hr]

theorem vals {m m' : PyMem R} (h : Unchanged m m') {r : Nat} (hr : r < m.arrays.length) : m'.vals r = m.vals r := by
  unfold PyMem.vals
  rw [h.getArray hr]

theorem object {m m' : PyMem R} (h : Unchanged m m') {x : Nat} (hx : x < m.objects.length) :
    m'.object x = m.object x := by
  obtain ⟨t, ht⟩ := h.objects
  unfold PyMem.object
  rw [← ht, List.getD_eq_getElem?_getD, List.getD_eq_getElem?_getD, List.getElem?_append_left hx]

theorem lengths {m m' : PyMem R} (h : Unchanged m m') :
    m.arrays.length ≤ m'.arrays.length ∧ m.objects.length ≤ m'.objects.length :=
  ⟨h.arrays.length_le, h.objects.length_le⟩

/-- Assigning to a new array. -/
theorem setArray {m m' : PyMem R} (h : Unchanged m m') {r : Nat} (hr : m.arrays.length ≤ r) (a : NpArray R) :
    Unchanged m (m'.setArray r a) := by
  refine ⟨?_, h.objects⟩
  obtain ⟨t, ht⟩ := h.arrays
  refine ⟨t.set (r - m.arrays.length) a, ?_⟩
  show _ = m'.arrays.set r a
  rw [← ht, List.set_append_right _ _ hr]

/-- Assigning to an attribute of a new object. -/
theorem setObject {m m' : PyMem R} (h : Unchanged m m') {x : Nat} (hx : m.objects.length ≤ x) (o : SpObject) :
    Unchanged m (m'.setObject x o) := by
  refine ⟨h.arrays, ?_⟩
  obtain ⟨t, ht⟩ := h.objects
  refine ⟨t.set (x - m.objects.length) o, ?_⟩
  show _ = m'.objects.set x o
  rw [← ht, List.set_append_right _ _ hx]

end Spec.Unchanged

theorem newArray_unchanged (m : PyMem R) (a : NpArray R) : Unchanged m (m.newArray a).2 :=
  ⟨List.prefix_append _ _, List.prefix_rfl⟩

theorem newObject_unchanged (m : PyMem R) (o : SpObject) : Unchanged m (m.newObject o).2 :=
  ⟨List.prefix_rfl, List.prefix_append _ _⟩

theorem newObject_object (m : PyMem R) (o : SpObject) : (m.newObject o).2.object m.objects.length = o := by
  unfold PyMem.newObject PyMem.object
  simp

/-- What a new matrix consists of. -/
theorem newMatrix_spec (m : PyMem R) (fmt : SpFormat) (b : Bool) (n k : Nat) (data : List R) (minor major : List Int) :
    let r := m.newMatrix fmt b n k data minor major
    r.1 = m.objects.length ∧
    r.2 = ⟨m.arrays ++ [.vals data, .ints minor, .ints major], m.objects ++ [⟨fmt, b, n, k, m.arrays.length,
      m.arrays.length + 1, m.arrays.length + 2⟩]⟩ := by
  simp [PyMem.newMatrix, PyMem.newArray, PyMem.newObject]

theorem newMatrix_unchanged (m : PyMem R) (fmt : SpFormat) (b : Bool) (n k : Nat) (data : List R)
    (minor major : List Int) : Unchanged m (m.newMatrix fmt b n k data minor major).2 := by
  rw [(newMatrix_spec m fmt b n k data minor major).2]
  exact ⟨List.prefix_append _ _, List.prefix_append _ _⟩

/-- Reading a new matrix back. -/
theorem newMatrix_read (m : PyMem R) (fmt : SpFormat) (b : Bool) (n k : Nat) (data : List R) (minor major : List Int) :
    let r := m.newMatrix fmt b n k data minor major
    let o := r.2.object r.1
    r.1 = m.objects.length ∧ r.1 < r.2.objects.length ∧ o.format = fmt ∧ o.float32 = b ∧ o.nrows = n ∧ o.ncols = k ∧
    o.data = m.arrays.length ∧ o.minor = m.arrays.length + 1 ∧ o.major = m.arrays.length + 2 ∧
    r.2.arrays[o.data]? = some (.vals data) ∧ r.2.arrays[o.minor]? = some (.ints minor) ∧
    r.2.arrays[o.major]? = some (.ints major) ∧ r.2.arrays.length = m.arrays.length + 3 := by
  intro r o
  obtain ⟨h1, h2⟩ := newMatrix_spec m fmt b n k data minor major
  have ho : o = ⟨fmt, b, n, k, m.arrays.length, m.arrays.length + 1, m.arrays.length + 2⟩ := by
    show (m.newMatrix fmt b n k data minor major).2.object (m.newMatrix fmt b n k data minor major).1 = _
    rw [h1, h2]
    unfold PyMem.object
    simp
  have hr : r.2 = _ := h2
  refine ⟨h1, ?_, ?_⟩
  · rw [hr, show r.1 = _ from h1]
    simp
  rw [ho]
  refine ⟨rfl, rfl, rfl, rfl, rfl, rfl, rfl, ?_, ?_, ?_, ?_⟩ <;> rw [hr] <;> simp

theorem newMatrix_fresh {m₀ m : PyMem R} (h : Unchanged m₀ m) (fmt : SpFormat) (b : Bool) (n k : Nat) (data : List R)
    (minor major : List Int) :
    Fresh m₀ (m.newMatrix fmt b n k data minor major).2 (m.newMatrix fmt b n k data minor major).1 := by
  obtain ⟨h1, h2, -, -, -, -, h3, h4, h5, -⟩ := newMatrix_read m fmt b n k data minor major
  have := h.lengths
  exact ⟨by omega, h2, by omega, by omega, by omega⟩

theorem Spec.Fresh.of_unchanged {a b c : PyMem R} {x : Nat} (h : Fresh a b x) (h' : Unchanged b c) : Fresh a c x := by
  have := h'.object h.exist
  have := h'.lengths
  have := h.exist
  exact ⟨h.new, by omega, by rw [h'.object h.exist]; exact h.data, by rw [h'.object h.exist]; exact h.minor,
    by rw [h'.object h.exist]; exact h.major⟩

theorem Spec.Fresh.weaken {a b c : PyMem R} {x : Nat} (h : Fresh b c x) (h' : Unchanged a b) : Fresh a c x := by
  have := h'.lengths
  have := h.new
  have := h.data
  have := h.minor
  have := h.major
  exact ⟨by omega, h.exist, by omega, by omega, by omega⟩

/-! ## Slices -/

theorem slicesAt_append_right {A : Type} (l post : List A) : ∀ (p : List Nat), (∀ q ∈ p, q ≤ l.length) →
    slicesAt (l ++ post) p = slicesAt l p
  | [], _ => rfl
  | [_], _ => rfl
  | a :: b :: p, h => by
    have ih := slicesAt_append_right l post (b :: p) fun q hq => h q (List.mem_cons_of_mem _ hq)
    unfold slicesAt
    rw [ih]
    congr 1
    have ha : a ≤ l.length := h a (by simp)
    have hb : b ≤ l.length := h b (by simp)
    rw [List.drop_append_of_le_length ha, List.take_append_of_le_length (by rw [List.length_drop]; omega)]

/-- The pointers are determined by the lengths of the slices. -/
theorem scanl_slicesAt {A : Type} (l : List A) : ∀ (a : Nat) (p : List Nat), (a :: p).Pairwise (· ≤ ·) →
    (∀ q ∈ a :: p, q ≤ l.length) → ((slicesAt l (a :: p)).map List.length).scanl (· + ·) a = a :: p
  | a, [], _, _ => by simp [slicesAt]
  | a, b :: p, hp, hb => by
    have ih := scanl_slicesAt l b p (List.pairwise_cons.mp hp).2 fun q hq => hb q (List.mem_cons_of_mem _ hq)
    have hab : a ≤ b := (List.pairwise_cons.mp hp).1 b (by simp)
    have hbl : b ≤ l.length := hb b (by simp)
    unfold slicesAt
    rw [List.map_cons, List.scanl_cons, List.length_take, List.length_drop,
      show a + min (b - a) (l.length - a) = b by omega, ih]

theorem flatten_slicesAt {A : Type} (l : List A) : ∀ (a : Nat) (p : List Nat), (a :: p).Pairwise (· ≤ ·) →
    (∀ q ∈ a :: p, q ≤ l.length) →
    l.take a ++ (slicesAt l (a :: p)).flatten ++ l.drop ((a :: p).getLastD 0) = l
  | a, [], _, _ => by simp [slicesAt]
  | a, b :: p, hp, hb => by
    have ih := flatten_slicesAt l b p (List.pairwise_cons.mp hp).2 fun q hq => hb q (List.mem_cons_of_mem _ hq)
    have hab : a ≤ b := (List.pairwise_cons.mp hp).1 b (by simp)
    unfold slicesAt
    rw [List.flatten_cons, ← List.append_assoc, show l.take a ++ (l.drop a).take (b - a) = l.take b by
      rw [← List.take_add, show a + (b - a) = b by omega]]
    simpa using ih

theorem slicesAt_getLastD (a : Nat) (p : List Nat) (hp : (a :: p).Pairwise (· ≤ ·)) : ∀ q ∈ a :: p, q ≤ (a :: p).getLastD 0 := by
  induction p generalizing a with
  | nil => simp
  | cons b p ih =>
    have h := ih b (List.pairwise_cons.mp hp).2
    intro q hq
    rcases List.mem_cons.mp hq with rfl | hq
    · have := h b (by simp)
      have := (List.pairwise_cons.mp hp).1 b (by simp)
      simp only [List.getLastD_cons] at *
      omega
    · simpa using h q hq

/-- Sorting between the pointers sorts the slices. -/
theorem slicesAt_sortSlices (l : List (Int × R)) (p : List Nat) (hp : p.Pairwise (· ≤ ·)) (hb : ∀ q ∈ p, q ≤ l.length) :
    slicesAt (sortSlices l p) p = (slicesAt l p).map fun row => row.insertionSort fun a b => a.1 ≤ b.1 := by
  cases p with
  | nil => rfl
  | cons a p =>
    have h1 := scanl_slicesAt l a p hp hb
    set rows := slicesAt l (a :: p) with hrows
    set rows' := rows.map fun row => row.insertionSort fun a b : Int × R => a.1 ≤ b.1 with hrows'
    have hlen : rows'.map List.length = rows.map List.length := by
      rw [hrows', List.map_map]
      refine List.map_congr_left fun row _ => ?_
      simp [List.length_insertionSort]
    have ha : (l.take a).length = a := by
      rw [List.length_take]
      have := hb a (by simp)
      omega
    have h2 := slicesAt_scanl rows' (l.take a)
    rw [hlen, ha, h1] at h2
    unfold sortSlices
    simp only [List.headD_cons]
    rw [slicesAt_append_right, ← hrows, ← hrows']
    · exact h2
    · intro q hq
      have h3 := slicesAt_getLastD a p hp q hq
      have h4 : (a :: p).getLastD 0 = a + (rows.map List.length).sum := by
        rw [← h1, getLastD_scanl]
      rw [← hrows, ← hrows', List.length_append, ha, List.length_flatten, hlen]
      omega

theorem sortSlices_length (l : List (Int × R)) (p : List Nat) (hp : p.Pairwise (· ≤ ·)) (hb : ∀ q ∈ p, q ≤ l.length) :
    (sortSlices l p).length = l.length := by
  cases p with
  | nil => simp [sortSlices, slicesAt]
  | cons a p =>
    have h := congrArg List.length (flatten_slicesAt l a p hp hb)
    unfold sortSlices
    rw [List.length_append, List.length_append, List.length_flatten, List.map_map] at *
    rw [show (slicesAt l (a :: p)).map (List.length ∘ fun row : List (Int × R) => row.insertionSort fun a b => a.1 ≤ b.1) =
      (slicesAt l (a :: p)).map List.length from List.map_congr_left fun row _ => by simp [List.length_insertionSort]]
    simpa using h

/-! ## Sorting in place -/

theorem ints_of {m : PyMem R} {r : Nat} {l : List Int} (h : m.arrays[r]? = some (.ints l)) : m.ints r = l := by
  unfold PyMem.ints
  rw [h]

theorem vals_of {m : PyMem R} {r : Nat} {l : List R} (h : m.arrays[r]? = some (.vals l)) : m.vals r = l := by
  unfold PyMem.vals
  rw [h]

theorem Spec.ValidCsr.distinct {m : PyMem R} {o : SpObject} (h : ValidCsr m o) :
    o.minor ≠ o.data ∧ o.major ≠ o.data := by
  obtain ⟨d, hd⟩ := h.data
  obtain ⟨i, hi⟩ := h.minor
  obtain ⟨p, hp⟩ := h.major
  constructor <;> intro he
  · rw [he, hd] at hi
    cases hi
  · rw [he, hd] at hp
    cases hp

/-- Triples of matrices whose rows are permutations of each other. -/
theorem rowTriples_perm {rows rows' : List (List (Int × R))} (h : List.Forall₂ List.Perm rows rows') (k : Nat) :
    ((rows.zipIdx k).flatMap fun p => p.1.map fun e => (p.2, e.1.toNat, e.2)).Perm
      ((rows'.zipIdx k).flatMap fun p => p.1.map fun e => (p.2, e.1.toNat, e.2)) := by
  induction h generalizing k with
  | nil => exact List.Perm.refl _
  | cons hr _ ih =>
    simp only [List.zipIdx_cons, List.flatMap_cons]
    exact (hr.map _).append (ih (k + 1))

theorem forall₂_sorted (rows : List (List (Int × R))) :
    List.Forall₂ List.Perm (rows.map fun row => row.insertionSort fun a b => a.1 ≤ b.1) rows := by
  induction rows with
  | nil => exact .nil
  | cons row rows ih => exact .cons (List.perm_insertionSort _ _) ih

theorem insertionSort_fst (row : List (Int × R)) :
    ((row.insertionSort fun a b => a.1 ≤ b.1).map Prod.fst).Pairwise (· ≤ ·) := by
  rw [List.pairwise_map]
  have : Std.Total (fun a b : Int × R => a.1 ≤ b.1) := ⟨fun a b => le_total a.1 b.1⟩
  have : IsTrans (Int × R) (fun a b : Int × R => a.1 ≤ b.1) := ⟨fun _ _ _ => le_trans⟩
  exact List.pairwise_insertionSort _ _

theorem sortIndices_spec {m : PyMem R} {x : Nat} {o : SpObject} (ho : m.object x = o) (h : ValidCsr m o) :
    (m.sortIndices x).objects = m.objects ∧ (m.sortIndices x).arrays.length = m.arrays.length ∧
    (∀ a, a ≠ o.data → a ≠ o.minor → (m.sortIndices x).arrays[a]? = m.arrays[a]?) ∧
    (m.sortIndices x).slices o = (m.slices o).map (fun row => row.insertionSort fun a b => a.1 ≤ b.1) ∧
    ValidCsr (m.sortIndices x) o := by
  obtain ⟨hmd, hjd⟩ := h.distinct
  obtain ⟨d, hd⟩ := h.data
  obtain ⟨i, hi⟩ := h.minor
  obtain ⟨p, hp⟩ := h.major
  have hlen : i.length = d.length := by
    have := h.length
    rwa [ints_of hi, vals_of hd] at this
  set ptr := p.map Int.toNat with hptr
  have hpn : ∀ q ∈ p, 0 ≤ q := by
    have := h.nonneg
    rwa [ints_of hp] at this
  have hpw : ptr.Pairwise (· ≤ ·) := by
    have := h.mono
    rw [ints_of hp] at this
    rw [hptr, List.pairwise_map]
    exact this.imp fun hab => Int.toNat_le_toNat hab
  have hpb : ∀ q ∈ ptr, q ≤ (i.zip d).length := by
    intro q hq
    obtain ⟨q', hq', rfl⟩ := List.mem_map.mp hq
    have h1 := h.bound
    rw [ints_of hp, ints_of hi] at h1
    have := h1 q' hq'
    rw [List.length_zip]
    omega
  set sorted := sortSlices (i.zip d) ptr with hsorted
  have hsl : sorted.length = i.length := by
    rw [hsorted, sortSlices_length _ _ hpw hpb, List.length_zip]
    omega
  have hm : m.sortIndices x = (m.setArray o.minor (.ints (sorted.map Prod.fst))).setArray o.data
      (.vals (sorted.map Prod.snd)) := by
    unfold PyMem.sortIndices
    simp only [ho, ints_of hi, vals_of hd, ints_of hp]
    rfl
  have hdl : o.data < m.arrays.length := (List.getElem?_eq_some_iff.mp hd).1
  have hil : o.minor < m.arrays.length := (List.getElem?_eq_some_iff.mp hi).1
  have hother : ∀ a, a ≠ o.data → a ≠ o.minor → (m.sortIndices x).arrays[a]? = m.arrays[a]? := by
    intro a h1 h2
    rw [hm]
    simp only [PyMem.setArray]
    rw [List.getElem?_set_ne (Ne.symm h1), List.getElem?_set_ne (Ne.symm h2)]
  have hd' : (m.sortIndices x).arrays[o.data]? = some (.vals (sorted.map Prod.snd)) := by
    rw [hm]
    simp only [PyMem.setArray]
    rw [List.getElem?_set_self (by simpa using hdl)]
  have hi' : (m.sortIndices x).arrays[o.minor]? = some (.ints (sorted.map Prod.fst)) := by
    rw [hm]
    simp only [PyMem.setArray]
    rw [List.getElem?_set_ne (Ne.symm hmd), List.getElem?_set_self hil]
  have hp' : (m.sortIndices x).arrays[o.major]? = some (.ints p) := by
    rw [hother _ hjd (Ne.symm h.other), hp]
  refine ⟨by rw [hm]; rfl, by rw [hm]; simp [PyMem.setArray], hother, ?_, ?_⟩
  · unfold PyMem.slices
    rw [ints_of hi', vals_of hd', ints_of hp', ints_of hi, vals_of hd, ints_of hp, List.zip_map',
      show (sorted.map fun a => (a.1, a.2)) = sorted from List.map_id _]
    exact slicesAt_sortSlices _ _ hpw hpb
  · refine ⟨h.format, ⟨_, hd'⟩, ⟨_, hi'⟩, ⟨_, hp'⟩, h.other, ?_, ?_, ?_, ?_⟩
    · rw [ints_of hi', vals_of hd']
      simp
    · rw [ints_of hp']
      exact hpn
    · rw [ints_of hp']
      simpa [ints_of hp] using h.mono
    · rw [ints_of hp', ints_of hi', List.length_map, hsl]
      simpa [ints_of hp, ints_of hi] using h.bound

theorem triples_csr {m : PyMem R} {o : SpObject} (h : o.format = .csr) :
    m.triples o = (m.slices o).zipIdx.flatMap fun p => p.1.map fun e => (p.2, e.1.toNat, e.2) := by
  unfold PyMem.triples
  rw [h]

/-- Sorting in place: the same stored triples, now in order. -/
theorem ensureSorted_spec [LinearOrder R] [Field R] {m : PyMem R} {x : Nat} {o : SpObject} (ho : m.object x = o)
    (h : ValidCsr m o) :
    (ensureSorted m x).objects = m.objects ∧ (ensureSorted m x).arrays.length = m.arrays.length ∧
    (∀ a, a ≠ o.data → a ≠ o.minor → (ensureSorted m x).arrays[a]? = m.arrays[a]?) ∧
    ((ensureSorted m x).triples o).Perm (m.triples o) ∧ (ensureSorted m x).hasSortedIndices x = true ∧
    ValidCsr (ensureSorted m x) o ∧ (m.hasSortedIndices x = true → ensureSorted m x = m) := by
  unfold ensureSorted
  by_cases hs : m.hasSortedIndices x = true
  · rw [if_pos hs]
    exact ⟨rfl, rfl, fun _ _ _ => rfl, List.Perm.refl _, hs, h, fun _ => rfl⟩
  rw [if_neg hs]
  obtain ⟨h1, h2, h3, h4, h5⟩ := sortIndices_spec ho h
  refine ⟨h1, h2, h3, ?_, ?_, h5, fun hc => absurd hc hs⟩
  · rw [triples_csr h.format, triples_csr h.format, h4]
    exact rowTriples_perm (forall₂_sorted _) 0
  · have ho' : (m.sortIndices x).object x = o := by
      unfold PyMem.object
      rw [h1]
      exact ho
    unfold PyMem.hasSortedIndices
    rw [ho', h4, List.all_map, List.all_eq_true]
    intro row _
    exact decide_eq_true (insertionSort_fst row)

/-! ## New CSR matrices -/

theorem newCsr_spec (m : PyMem R) (b : Bool) (n k : Nat) (rows : SpRows R) :
    let r := m.newCsr b n k rows
    let o := r.2.object r.1
    r.1 = m.objects.length ∧ Unchanged m r.2 ∧ Fresh m r.2 r.1 ∧ ValidCsr r.2 o ∧ o.float32 = b ∧ o.nrows = n ∧ o.ncols = k ∧
    r.2.slices o = rows.map (fun row => row.map fun e => (Int.ofNat e.1, e.2)) := by
  intro r o
  obtain ⟨h1, h2, h3, h4, h5, h6, h7, h8, h9, h10, h11, h12, -⟩ := newMatrix_read m .csr b n k (csrArrays rows).data
    ((csrArrays rows).indices.map Int.ofNat) ((csrArrays rows).indptr.map Int.ofNat)
  have hd : r.2.arrays[o.data]? = _ := h10
  have hi : r.2.arrays[o.minor]? = _ := h11
  have hp : r.2.arrays[o.major]? = _ := h12
  have hmono : (csrArrays rows).indptr.Pairwise (· ≤ ·) ∧
      ∀ q ∈ (csrArrays rows).indptr, q ≤ (csrArrays rows).indices.length := by
    unfold csrArrays
    simp only [List.length_map, List.length_flatten]
    have key : ∀ (ns : List Nat) (a : Nat), (ns.scanl (· + ·) a).Pairwise (· ≤ ·) ∧
        ∀ q ∈ ns.scanl (· + ·) a, a ≤ q ∧ q ≤ a + ns.sum := by
      intro ns
      induction ns with
      | nil => simp
      | cons c ns ih =>
        intro a
        obtain ⟨ih1, ih2⟩ := ih (a + c)
        rw [List.scanl_cons]
        refine ⟨List.pairwise_cons.mpr ⟨fun q hq => ?_, ih1⟩, fun q hq => ?_⟩
        · have := ih2 q hq
          omega
        · rw [List.sum_cons]
          rcases List.mem_cons.mp hq with rfl | hq
          · omega
          · have := ih2 q hq
            omega
    obtain ⟨k1, k2⟩ := key (rows.map List.length) 0
    refine ⟨k1, fun q hq => ?_⟩
    have := (k2 q hq).2
    omega
  refine ⟨h1, newMatrix_unchanged _ _ _ _ _ _ _ _, newMatrix_fresh (Unchanged.refl m) _ _ _ _ _ _ _, ?_, h4, h5, h6, ?_⟩
  · refine ⟨h3, ⟨_, hd⟩, ⟨_, hi⟩, ⟨_, hp⟩, ?_, ?_, ?_, ?_, ?_⟩
    · have e1 : o.minor = _ := h8
      have e2 : o.major = _ := h9
      omega
    · rw [ints_of hi, vals_of hd, List.length_map]
      unfold csrArrays
      rw [List.length_map, List.length_map]
    · rw [ints_of hp]
      intro q hq
      obtain ⟨q', -, rfl⟩ := List.mem_map.mp hq
      exact Int.natCast_nonneg _
    · rw [ints_of hp, List.pairwise_map]
      exact hmono.1.imp fun hab => Int.ofNat_le.mpr hab
    · rw [ints_of hp, ints_of hi, List.length_map]
      intro q hq
      obtain ⟨q', hq', rfl⟩ := List.mem_map.mp hq
      exact Int.ofNat_le.mpr (hmono.2 q' hq')
  · unfold PyMem.slices
    rw [ints_of hi, vals_of hd, ints_of hp, List.map_map]
    rw [show (Int.toNat ∘ Int.ofNat : Nat → Nat) = id from funext fun q => Int.toNat_natCast q, List.map_id]
    set rows' : List (List (Int × R)) := rows.map (fun row => row.map fun e => (Int.ofNat e.1, e.2)) with hr'
    have hz : ((csrArrays rows).indices.map Int.ofNat).zip (csrArrays rows).data = rows'.flatten := by
      unfold csrArrays
      simp only
      rw [List.map_map, List.zip_map', hr', List.map_flatten]
      rfl
    have hl : (csrArrays rows).indptr = (rows'.map List.length).scanl (· + ·) 0 := by
      unfold csrArrays
      simp only
      rw [hr', List.map_map]
      congr 1
      refine List.map_congr_left fun row _ => ?_
      simp
    rw [hz, hl]
    simpa using slicesAt_scanl rows' []

/-! ## Conversions -/

section Conversions

variable [LinearOrder R] [Field R]

theorem total_rows_aux (rows : SpRows R) (i j k : Nat) :
    Spec.total ((rows.zipIdx k).flatMap fun p => p.1.map fun e => (p.2, e.1, e.2)) i j =
      if k ≤ i then Spec.entry rows (i - k) j else 0 := by
  induction rows generalizing k with
  | nil => simp [Spec.total, Spec.entry, Spec.cell, Spec.sumAt]
  | cons row rows ih =>
    rw [List.zipIdx_cons, List.flatMap_cons, total_append, ih]
    have hrow : Spec.total (row.map fun e => (k, e.1, e.2)) i j = if k = i then Spec.sumAt row j else 0 := by
      induction row with
      | nil => simp [Spec.total, Spec.sumAt]
      | cons e row ih =>
        rw [List.map_cons, show ∀ (a : Nat × Nat × R) l, a :: l = [a] ++ l from fun _ _ => rfl, total_append, ih]
        by_cases hk : k = i <;> by_cases he : e.1 = j <;> simp [Spec.total, Spec.sumAt, hk, he]
    rw [hrow]
    rcases lt_trichotomy k i with h | h | h
    · rw [if_neg (by omega), if_pos (by omega), if_pos (by omega), zero_add]
      unfold Spec.entry
      rw [show i - k = (i - (k + 1)) + 1 by omega]
      rfl
    · subst h
      rw [if_pos rfl, if_neg (by omega), if_pos le_rfl, add_zero, Nat.sub_self]
      rfl
    · rw [if_neg (by omega), if_neg (by omega), if_neg (by omega), add_zero]

theorem total_rows (rows : SpRows R) (i j : Nat) :
    Spec.total (rows.zipIdx.flatMap fun p => p.1.map fun e => (p.2, e.1, e.2)) i j = Spec.entry rows i j := by
  rw [total_rows_aux]
  simp

/-- The triples of a new CSR matrix. -/
theorem newCsr_triples (m : PyMem R) (b : Bool) (n k : Nat) (rows : SpRows R) :
    let r := m.newCsr b n k rows
    r.2.triples (r.2.object r.1) = rows.zipIdx.flatMap fun p => p.1.map fun e => (p.2, e.1, e.2) := by
  intro r
  obtain ⟨-, -, -, hv, -, -, -, hs⟩ := newCsr_spec m b n k rows
  rw [triples_csr hv.format]
  have hs' : r.2.slices (r.2.object r.1) = _ := hs
  rw [hs', List.zipIdx_map, List.flatMap_map]
  refine List.flatMap_congr fun p _ => ?_
  simp

theorem toCsr_spec {m : PyMem R} {x : Nat} {o : SpObject} (hx : x < m.objects.length) (ho : m.object x = o)
    (hv : o.format = .csr → ValidCsr m o) :
    let r := m.toCsr x
    let o' := r.2.object r.1
    Unchanged m r.2 ∧ r.1 < r.2.objects.length ∧ ValidCsr r.2 o' ∧ o'.float32 = o.float32 ∧ o'.nrows = o.nrows ∧
    (o.format = .csr → r = (x, m)) ∧ (o.format ≠ .csr → Fresh m r.2 r.1) ∧
    ∀ i < o.nrows, ∀ j, Spec.total (r.2.triples o') i j = Spec.total (m.triples o) i j := by
  intro r o'
  cases hf : o.format with
  | csr =>
    have hr : m.toCsr x = (x, m) := by
      unfold PyMem.toCsr
      simp only [ho, hf]
    have h1 : r = (x, m) := hr
    have h2 : o' = o := by
      show r.2.object r.1 = o
      rw [h1]
      exact ho
    rw [h2, h1]
    exact ⟨Unchanged.refl m, hx, hv hf, rfl, rfl, fun _ => rfl, fun h => absurd rfl h, fun _ _ _ => rfl⟩
  | coo =>
    have hr : r = m.newCsr o.float32 o.nrows o.ncols (cooToCsr o.nrows (m.triples o)) := by
      show m.toCsr x = _
      unfold PyMem.toCsr
      simp only [ho, hf]
    obtain ⟨-, h2, h3, h4, h5, h6, -, -⟩ := newCsr_spec m o.float32 o.nrows o.ncols (cooToCsr o.nrows (m.triples o))
    have h7 := newCsr_triples m o.float32 o.nrows o.ncols (cooToCsr o.nrows (m.triples o))
    simp only at h2 h3 h4 h5 h6 h7
    rw [← hr] at h2 h3 h4 h5 h6 h7
    refine ⟨h2, h3.exist, h4, h5, h6, fun h => absurd h (by simp), fun _ => h3, fun i hi j => ?_⟩
    rw [show o' = r.2.object r.1 from rfl, h7, total_rows, entry_cooToCsr _ _ hi]
  | csc =>
    have hr : r = m.newCsr o.float32 o.nrows o.ncols ((List.range o.nrows).map fun r =>
        ((m.triples o).filter fun e => e.1 == r).map fun e => e.2) := by
      show m.toCsr x = _
      unfold PyMem.toCsr
      simp only [ho, hf]
    obtain ⟨-, h2, h3, h4, h5, h6, -, -⟩ := newCsr_spec m o.float32 o.nrows o.ncols ((List.range o.nrows).map fun r =>
        ((m.triples o).filter fun e => e.1 == r).map fun e => e.2)
    have h7 := newCsr_triples m o.float32 o.nrows o.ncols ((List.range o.nrows).map fun r =>
        ((m.triples o).filter fun e => e.1 == r).map fun e => e.2)
    simp only at h2 h3 h4 h5 h6 h7
    rw [← hr] at h2 h3 h4 h5 h6 h7
    refine ⟨h2, h3.exist, h4, h5, h6, fun h => absurd h (by simp), fun _ => h3, fun i hi j => ?_⟩
    rw [show o' = r.2.object r.1 from rfl, h7, total_rows]
    unfold Spec.entry Spec.cell
    rw [List.getD_eq_getElem?_getD, List.getElem?_map, List.getElem?_range hi]
    exact sumAt_cooRow (m.triples o) i j

/-- Copies have the contents of the original. -/
theorem copied_spec {m : PyMem R} (o : SpObject) (b : Bool) (data : List R) :
    let r := m.newMatrix o.format b o.nrows o.ncols data (m.ints o.minor) (m.ints o.major)
    let o' := r.2.object r.1
    Unchanged m r.2 ∧ Fresh m r.2 r.1 ∧ o'.format = o.format ∧ o'.float32 = b ∧ o'.nrows = o.nrows ∧
    (ValidCsr m o → data.length = (m.vals o.data).length → ValidCsr r.2 o') ∧
    r.2.vals o'.data = data ∧ r.2.ints o'.minor = m.ints o.minor ∧ r.2.ints o'.major = m.ints o.major := by
  intro r o'
  obtain ⟨h1, h2, h3, h4, h5, h6, h7, h8, h9, h10, h11, h12, -⟩ :=
    newMatrix_read m o.format b o.nrows o.ncols data (m.ints o.minor) (m.ints o.major)
  have hd : r.2.arrays[o'.data]? = _ := h10
  have hi : r.2.arrays[o'.minor]? = _ := h11
  have hp : r.2.arrays[o'.major]? = _ := h12
  refine ⟨newMatrix_unchanged _ _ _ _ _ _ _ _, newMatrix_fresh (Unchanged.refl m) _ _ _ _ _ _ _, h3, h4, h5, ?_,
    vals_of hd, ints_of hi, ints_of hp⟩
  intro hv hl
  refine ⟨h3.trans hv.format, ⟨_, hd⟩, ⟨_, hi⟩, ⟨_, hp⟩, ?_, ?_, ?_, ?_, ?_⟩
  · have e1 : o'.minor = _ := h8
    have e2 : o'.major = _ := h9
    omega
  · rw [ints_of hi, vals_of hd, hl, hv.length]
  · rw [ints_of hp]
    exact hv.nonneg
  · rw [ints_of hp]
    exact hv.mono
  · rw [ints_of hp, ints_of hi]
    exact hv.bound

theorem toFloat32_spec {m : PyMem R} {x : Nat} {o : SpObject} (hx : x < m.objects.length) (ho : m.object x = o) :
    let r := toFloat32 m x
    let o' := r.2.object r.1
    Unchanged m r.2 ∧ r.1 < r.2.objects.length ∧ (ValidCsr m o → ValidCsr r.2 o') ∧ o'.float32 = true ∧
    o'.format = o.format ∧ o'.nrows = o.nrows ∧ (o.float32 = true → r = (x, m)) ∧
    (o.float32 ≠ true → Fresh m r.2 r.1) ∧ r.2.triples o' = m.triples o := by
  intro r o'
  by_cases hb : o.float32 = true
  · have h1 : r = (x, m) := by
      show toFloat32 m x = _
      unfold toFloat32
      rw [ho, if_pos hb]
    have h2 : o' = o := by
      show r.2.object r.1 = o
      rw [h1]
      exact ho
    rw [h2, h1]
    exact ⟨Unchanged.refl m, hx, id, hb, rfl, rfl, fun _ => rfl, fun h => absurd hb h, rfl⟩
  · have h1 : r = m.newMatrix o.format true o.nrows o.ncols (m.vals o.data) (m.ints o.minor) (m.ints o.major) := by
      show toFloat32 m x = _
      unfold toFloat32 PyMem.astypeFloat32
      simp only [ho, if_neg hb]
    obtain ⟨c1, c2, c3, c4, c5, c6, c7, c8, c9⟩ := copied_spec (m := m) o true (m.vals o.data)
    simp only at c1 c2 c3 c4 c5 c6 c7 c8 c9
    rw [← h1] at c1 c2 c3 c4 c5 c6 c7 c8 c9
    refine ⟨c1, c2.exist, fun hv => c6 hv trivial, c4, c3, c5, fun h => absurd h hb, fun _ => c2, ?_⟩
    show r.2.triples (r.2.object r.1) = _
    unfold PyMem.triples PyMem.slices
    rw [c3, c7, c8, c9]

/-- A matrix made ready for training: CSR, single precision, the same cells; the argument itself if it was so already and
otherwise new. -/
structure Prepared (m : PyMem R) (x : Nat) (r : Nat × PyMem R) : Prop where
  unchanged : Unchanged m r.2
  exist : r.1 < r.2.objects.length
  valid : ValidCsr r.2 (r.2.object r.1)
  same : (m.object x).format = .csr → (m.object x).float32 = true → r.1 = x
  fresh : ¬ ((m.object x).format = .csr ∧ (m.object x).float32 = true) → Fresh m r.2 r.1
  cells : ∀ i < (m.object x).nrows, ∀ j,
    Spec.total (r.2.triples (r.2.object r.1)) i j = Spec.total (m.triples (m.object x)) i j

theorem prepared_csr_float {m : PyMem R} {x : Nat} (hx : x < m.objects.length)
    (hv : (m.object x).format = .csr → ValidCsr m (m.object x)) :
    Prepared m x (toFloat32 (m.checkCsr x).2 (m.checkCsr x).1) := by
  obtain ⟨a1, a2, a3, a4, a5, a6, a7, a8⟩ := toCsr_spec hx rfl hv
  obtain ⟨b1, b2, b3, b4, b5, b6, b7, b8, b9⟩ := toFloat32_spec a2 rfl
  change Prepared m x (toFloat32 (m.toCsr x).2 (m.toCsr x).1)
  refine ⟨a1.trans b1, b2, b3 a3, ?_, ?_, ?_⟩
  · intro h1 h2
    have h3 := a6 h1
    rw [h3] at b7 ⊢
    rw [b7 h2]
  · intro h
    by_cases h1 : (m.object x).format = .csr
    · have h3 := a6 h1
      have h2 : (m.object x).float32 ≠ true := fun h2 => h ⟨h1, h2⟩
      rw [h3] at b8 ⊢
      exact b8 h2
    · have h2 := a7 h1
      by_cases h3 : ((m.toCsr x).2.object (m.toCsr x).1).float32 = true
      · rw [b7 h3]
        exact h2
      · exact (b8 h3).weaken a1
  · intro i hi j
    rw [b9, a8 i hi j]

theorem prepared_float_csr {m : PyMem R} {x : Nat} (hx : x < m.objects.length)
    (hv : (m.object x).format = .csr → ValidCsr m (m.object x)) :
    Prepared m x ((toFloat32 m x).2.checkCsr (toFloat32 m x).1) := by
  obtain ⟨b1, b2, b3, b4, b5, b6, b7, b8, b9⟩ := toFloat32_spec hx (o := m.object x) rfl
  obtain ⟨a1, a2, a3, a4, a5, a6, a7, a8⟩ := toCsr_spec b2 rfl fun h => b3 (hv (b5 ▸ h))
  change Prepared m x ((toFloat32 m x).2.toCsr (toFloat32 m x).1)
  refine ⟨b1.trans a1, a2, a3, ?_, ?_, ?_⟩
  · intro h1 h2
    have h3 := b7 h2
    have h4 := a6 (b5.trans h1)
    rw [h4, h3]
  · intro h
    by_cases h1 : (m.object x).format = .csr
    · rw [a6 (b5.trans h1)]
      exact b8 fun h2 => h ⟨h1, h2⟩
    · exact (a7 fun h2 => h1 (b5.symm.trans h2)).weaken b1
  · intro i hi j
    rw [a8 i (by rw [b6]; exact hi) j, b9]

/-- Sorting a new matrix touches nothing old. -/
theorem ensureSorted_fresh {m m' : PyMem R} {y : Nat} (h : Unchanged m m') (hf : Fresh m m' y) :
    Unchanged m (ensureSorted m' y) := by
  unfold ensureSorted
  split_ifs
  · exact h
  · unfold PyMem.sortIndices
    exact (h.setArray hf.minor _).setArray hf.data _

end Conversions

end Implicit

import Verif.Props.C79
import Verif.Lemmas.CallerData
/-!
# C79: CSR, CSC and COO matrices
-/

namespace Implicit

open Spec

variable {R : Type} [LinearOrder R] [Field R]

/-- The rows of a CSR object, as the compiled code reads them from its three arrays (for example `implicit/cpu/_als.pyx:109-111`). -/
def PyMem.csrRows (m : PyMem R) (o : SpObject) : SpRows R := (m.slices o).map fun row => row.map fun e => (e.1.toNat, e.2)

theorem csrRows_newCsr (m : PyMem R) (b : Bool) (n k : Nat) (rows : SpRows R) :
    (m.newCsr b n k rows).2.csrRows ((m.newCsr b n k rows).2.object (m.newCsr b n k rows).1) = rows := by
  obtain ⟨-, -, -, -, -, -, -, hs⟩ := newCsr_spec m b n k rows
  unfold PyMem.csrRows
  rw [hs, List.map_map]
  conv_rhs => rw [← List.map_id rows]
  refine List.map_congr_left fun row _ => ?_
  rw [Function.comp_apply, List.map_map, id_eq]
  conv_rhs => rw [← List.map_id row]
  refine List.map_congr_left fun e _ => ?_
  simp

omit [LinearOrder R] [Field R] in
theorem triples_csrRows {m : PyMem R} {o : SpObject} (h : o.format = .csr) :
    m.triples o = (m.csrRows o).zipIdx.flatMap fun p => p.1.map fun e => (p.2, e.1, e.2) := by
  rw [triples_csr h]
  unfold PyMem.csrRows
  rw [List.zipIdx_map, List.flatMap_map]
  refine List.flatMap_congr fun p _ => ?_
  simp

omit [LinearOrder R] in
theorem canonical_cooRow {es : List (Nat × Nat × R)} (h : CanonicalTriples es) (r : Nat) :
    ((cooRow r es).map Prod.fst).Nodup ∧ ∀ e ∈ cooRow r es, e.2 ≠ 0 := by
  obtain ⟨h1, h2⟩ := h
  constructor
  · induction es with
    | nil => exact List.nodup_nil
    | cons e es ih =>
      rw [List.map_cons, List.nodup_cons] at h1
      have ih := ih h1.2 fun e' he' => h2 e' (List.mem_cons_of_mem _ he')
      unfold cooRow at ih ⊢
      rw [List.filter_cons]
      split_ifs with hr
      · rw [List.map_cons, List.map_cons, List.nodup_cons]
        refine ⟨fun hm => h1.1 ?_, ih⟩
        obtain ⟨p, hp, hpe⟩ := List.mem_map.mp hm
        obtain ⟨q, hq, rfl⟩ := List.mem_map.mp hp
        rw [List.mem_filter] at hq
        refine List.mem_map.mpr ⟨q, hq.1, ?_⟩
        have a : q.1 = r := by simpa using hq.2
        have b : e.1 = r := by simpa using hr
        exact Prod.ext (a.trans b.symm) hpe
      · exact ih
  · intro e he
    unfold cooRow at he
    obtain ⟨q, hq, rfl⟩ := List.mem_map.mp he
    exact h2 q (List.mem_filter.mp hq).1

/-- **C79** (formats).  Whatever the format, `check_csr` returns rows which are the matrix of the caller.  If the caller stores every
number once and no zeros, so do the rows. -/
theorem C79_check_csr {m : PyMem R} {x : Nat}
    (hv : (m.object x).format = .csr → ValidCsr m (m.object x) ∧ (m.slices (m.object x)).length = (m.object x).nrows) :
    let r := m.checkCsr x
    let rows := r.2.csrRows (r.2.object r.1)
    rows.length = (m.object x).nrows ∧
      (∀ i < (m.object x).nrows, ∀ j, entry rows i j = total (m.triples (m.object x)) i j) ∧
      (CanonicalTriples (m.triples (m.object x)) → Canonical rows) := by
  intro r rows
  generalize ho : m.object x = o at hv ⊢
  cases hf : o.format with
  | csr =>
    have hr : r = (x, m) := by
      show m.toCsr x = _
      unfold PyMem.toCsr
      simp only [ho, hf]
    have hrows : rows = m.csrRows o := by
      show r.2.csrRows (r.2.object r.1) = _
      rw [hr, ho]
    rw [hrows]
    refine ⟨?_, fun i _ j => ?_, fun hc row hrow => ?_⟩
    · unfold PyMem.csrRows
      rw [List.length_map]
      exact (hv hf).2
    · rw [triples_csrRows hf, total_rows]
    · rw [triples_csrRows hf] at hc
      obtain ⟨i, hi, rfl⟩ := List.getElem_of_mem hrow
      have hsub : (((m.csrRows o)[i]).map fun e => (i, e.1, e.2)).Sublist
          ((m.csrRows o).zipIdx.flatMap fun p => p.1.map fun e => (p.2, e.1, e.2)) := by
        rw [List.flatMap_def]
        refine List.sublist_flatten_of_mem (List.mem_map.mpr ⟨((m.csrRows o)[i], i), ?_, rfl⟩)
        rw [List.mem_zipIdx_iff_getElem?]
        exact List.getElem?_eq_getElem hi
      refine ⟨?_, fun e he => hc.2 _ (hsub.subset (List.mem_map.mpr ⟨e, he, rfl⟩))⟩
      have := hc.1.sublist (hsub.map _)
      rw [List.map_map] at this
      have h2 : (((m.csrRows o)[i].map Prod.fst).map fun c => (i, c)).Nodup := by
        rw [List.map_map]
        exact this
      exact List.Nodup.of_map _ h2
  | coo =>
    have hr : r = m.newCsr o.float32 o.nrows o.ncols (cooToCsr o.nrows (m.triples o)) := by
      show m.toCsr x = _
      unfold PyMem.toCsr
      simp only [ho, hf]
    have hrows : rows = cooToCsr o.nrows (m.triples o) := by
      show r.2.csrRows (r.2.object r.1) = _
      rw [hr, csrRows_newCsr]
    rw [hrows]
    refine ⟨by simp [cooToCsr], fun i hi j => entry_cooToCsr _ _ hi j, fun hc row hrow => ?_⟩
    unfold cooToCsr at hrow
    obtain ⟨i, -, rfl⟩ := List.mem_map.mp hrow
    have hcr := canonical_cooRow hc i
    refine ⟨(coalesce_sorted _).imp fun h => ne_of_lt h, ?_⟩
    rintro ⟨c, v⟩ he
    obtain ⟨⟨w, hw⟩, rfl⟩ := (mem_coalesce _ _ _).mp he
    have : Spec.sumAt (cooRow i (m.triples o)) c = w := cell_of_nodup hcr.1 hw
    show Spec.sumAt (cooRow i (m.triples o)) c ≠ 0
    rw [this]
    exact hcr.2 _ hw
  | csc =>
    have hr : r = m.newCsr o.float32 o.nrows o.ncols ((List.range o.nrows).map fun r =>
        ((m.triples o).filter fun e => e.1 == r).map fun e => e.2) := by
      show m.toCsr x = _
      unfold PyMem.toCsr
      simp only [ho, hf]
    have hrows : rows = (List.range o.nrows).map fun r => cooRow r (m.triples o) := by
      show r.2.csrRows (r.2.object r.1) = _
      rw [hr, csrRows_newCsr]
      rfl
    rw [hrows]
    refine ⟨by simp, fun i hi j => ?_, fun hc row hrow => ?_⟩
    · unfold entry cell
      rw [List.getD_eq_getElem?_getD, List.getElem?_map, List.getElem?_range hi]
      exact sumAt_cooRow (m.triples o) i j
    · obtain ⟨i, -, rfl⟩ := List.mem_map.mp hrow
      exact canonical_cooRow hc i

/-- **C79** (formats).  Two matrices in any two formats with the same numbers, each stored once and no zeros: `check_csr` gives rows for
which the other theorems of C79 hold. -/
theorem C79_formats {m m' : PyMem R} {x x' : Nat}
    (hv : (m.object x).format = .csr → ValidCsr m (m.object x) ∧ (m.slices (m.object x)).length = (m.object x).nrows)
    (hv' : (m'.object x').format = .csr → ValidCsr m' (m'.object x') ∧ (m'.slices (m'.object x')).length = (m'.object x').nrows)
    (hn : (m'.object x').nrows = (m.object x).nrows)
    (hs : ∀ i j, total (m'.triples (m'.object x')) i j = total (m.triples (m.object x)) i j)
    (hc : CanonicalTriples (m.triples (m.object x))) (hc' : CanonicalTriples (m'.triples (m'.object x'))) :
    let rows := (m.checkCsr x).2.csrRows ((m.checkCsr x).2.object (m.checkCsr x).1)
    let rows' := (m'.checkCsr x').2.csrRows ((m'.checkCsr x').2.object (m'.checkCsr x').1)
    Canonical rows ∧ Canonical rows' ∧ SameTable rows rows' := by
  intro rows rows'
  obtain ⟨h1, h2, h3⟩ := C79_check_csr hv
  obtain ⟨h1', h2', h3'⟩ := C79_check_csr hv'
  have hl : rows.length = (m.object x).nrows := h1
  have hl' : rows'.length = (m.object x).nrows := h1'.trans hn
  refine ⟨h3 hc, h3' hc', hl.trans hl'.symm, fun i j => ?_⟩
  by_cases hi : i < (m.object x).nrows
  · exact (h2 i hi j).trans ((hs i j).symm.trans (h2' i (hn ▸ hi) j).symm)
  · have out : ∀ l : SpRows R, l.length = (m.object x).nrows → entry l i j = 0 := by
      intro l hll
      unfold entry
      rw [List.getD_eq_getElem?_getD, List.getElem?_eq_none (by omega)]
      rfl
    rw [out _ hl, out _ hl']

/-- A CSC matrix and a COO matrix with the triples in another order. -/
example :
    let m : PyMem Rat := ⟨[.vals [2, 4, 3], .ints [0, 1, 0], .ints [0, 1, 2, 3], .vals [3, 4, 2], .ints [2, 1, 0], .ints [0, 1, 0]],
      [⟨.csc, true, 2, 3, 0, 1, 2⟩, ⟨.coo, true, 2, 3, 3, 4, 5⟩]⟩
    let rows (x : Nat) := (m.checkCsr x).2.csrRows ((m.checkCsr x).2.object (m.checkCsr x).1)
    rows 0 = [[(0, 2), (2, 3)], [(1, 4)]] ∧ rows 1 = [[(0, 2), (2, 3)], [(1, 4)]] := by
  decide +kernel

end Implicit

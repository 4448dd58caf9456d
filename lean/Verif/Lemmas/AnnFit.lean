import Verif.Model.AnnFit
import Verif.Spec.AnnIndex
import Verif.Props.C41
import Verif.Props.C09
import Mathlib.Algebra.BigOperators.Field

set_option linter.unusedSectionVars false

namespace Implicit

variable {f : Nat}

theorem find_zipIdx {V : Type} (rows : List V) (i : Nat) : ∀ k, k ≤ i →
    ((rows.zipIdx k).find? fun e => e.2 == i).map Prod.fst = rows[i - k]? := by
  induction rows with
  | nil => intro k _; simp
  | cons r rows ih =>
    intro k hk
    rw [List.zipIdx_cons]
    by_cases h : k = i
    · subst h
      simp
    · rw [List.find?_cons_of_neg (by simpa using h), ih (k + 1) (by omega)]
      rw [show i - k = (i - (k + 1)) + 1 by omega]
      simp

theorem stored_numbered {n : Nat} (rows : List (Vec n ℝ)) (i : Nat) : Spec.stored (numbered rows) i = rows[i]? := by
  have h := find_zipIdx rows i 0 (Nat.zero_le i)
  rw [Nat.sub_zero] at h
  rw [← h]
  unfold Spec.stored numbered
  rw [List.find?_map, Option.map_map]
  rfl

theorem nodup_numbered {n : Nat} (rows : List (Vec n ℝ)) : ((numbered rows).map Prod.fst).Nodup := by
  unfold numbered
  rw [List.map_map]
  show (rows.zipIdx.map Prod.snd).Nodup
  rw [List.zipIdx_map_snd]
  exact List.nodup_range'

theorem length_numbered {n : Nat} (rows : List (Vec n ℝ)) : (numbered rows).length = rows.length := by
  simp [numbered]

theorem stored_filter {V : Type} (idx : List (Nat × V)) (hnd : (idx.map Prod.fst).Nodup) (p : V → Bool) (i : Nat) :
    Spec.stored (idx.filter fun e => p e.2) i = (Spec.stored idx i).filter p := by
  unfold Spec.stored
  induction idx with
  | nil => rfl
  | cons e idx ih =>
    rw [List.map_cons, List.nodup_cons] at hnd
    by_cases h : e.1 = i
    · rw [List.find?_cons_of_pos (by simpa using h)]
      by_cases hp : p e.2 = true
      · rw [List.filter_cons_of_pos (p := fun e : Nat × V => p e.2) hp, List.find?_cons_of_pos (by simpa using h)]
        simp [Option.filter, hp]
      · rw [List.filter_cons_of_neg (p := fun e : Nat × V => p e.2) hp]
        have : (idx.filter fun e => p e.2).find? (fun e => e.1 == i) = none := by
          rw [List.find?_eq_none]
          intro x hx hxi
          exact hnd.1 (List.mem_map.mpr ⟨x, (List.mem_filter.mp hx).1, by rw [h]; simpa using hxi⟩)
        rw [this]
        simp [Option.filter, hp]
    · rw [List.find?_cons_of_neg (by simpa using h)]
      by_cases hp : p e.2 = true
      · rw [List.filter_cons_of_pos (p := fun e : Nat × V => p e.2) hp, List.find?_cons_of_neg (by simpa using h)]
        exact ih hnd.2
      · rw [List.filter_cons_of_neg (p := fun e : Nat × V => p e.2) hp]
        exact ih hnd.2

theorem nearest_numbered {n : Nat} {dist : Vec n ℝ → Vec n ℝ → ℝ} {rows : List (Vec n ℝ)}
    {search : Vec n ℝ → Nat → List (Int × ℝ)} (h : Spec.NearestLabelled dist (numbered rows) search) :
    Spec.NearestIndex dist rows search := by
  intro q k
  obtain ⟨out, h1, h2⟩ := h q k
  refine ⟨out, h1, ?_⟩
  simpa [stored_numbered] using h2

/-- The filter applied to enough results of a ranking ranks what is not filtered. -/
theorem annFilter_ranking {N : Nat} {P : Nat → Prop} {score : Nat → Option ℝ} {g : ℝ → ℝ} {answer : List (Int × ℝ)}
    {out : List (Nat × ℝ)} (filter : Option (List Nat)) (h1 : answer.map (fun p => (p.1, g p.2)) = intRow out)
    (h2 : Spec.IsRanking (N + (filter.getD []).length) P score out) :
    ∃ out, (annFilter filter N answer).map (fun p => (p.1, g p.2)) = intRow out ∧
      Spec.IsRanking N (fun i => P i ∧ i ∉ filter.getD []) score out := by
  cases filter with
  | none => exact ⟨out, h1, by simpa using h2⟩
  | some ids =>
    refine ⟨_, ?_, h2.filterTake (F := ids) (by simp)⟩
    show (filterResults ids N _).map _ = _
    rw [filterResults_map, h1, filterResults_intRow]

/-- A ranking by ascending distances as a ranking by descending scores. -/
theorem nearest_ranking {n : Nat} {dist : Vec n ℝ → Vec n ℝ → ℝ} {idx : AnnIndex n}
    {search : Vec n ℝ → Nat → List (Int × ℝ)} (h : Spec.NearestLabelled dist idx search) (q : Vec n ℝ) (k : Nat)
    (g : ℝ → ℝ) (hg : ∀ y z, dist q z ≤ dist q y → g (dist q y) ≤ g (dist q z)) :
    ∃ out, (search q k).map (fun p => (p.1, g p.2)) = intRow out ∧
      Spec.IsRanking k (fun i => (Spec.stored idx i).isSome) (fun i => (Spec.stored idx i).map fun y => g (dist q y))
        out := by
  obtain ⟨out, h1, h2⟩ := h q k
  refine ⟨out.map fun p => (p.1, g p.2), ?_, ?_⟩
  · rw [h1]
    unfold intRow
    rw [List.map_map, List.map_map]
    rfl
  · have h3 := h2.mapScore (fun x => g (-x)) ?_
    · rw [List.map_map] at h3
      have e : ((fun p : Nat × ℝ => (p.1, g (-p.2))) ∘ fun p : Nat × ℝ => (p.1, -p.2)) =
          fun p : Nat × ℝ => (p.1, g p.2) := by
        funext p
        simp
      rw [e] at h3
      refine h3.congrScore fun i _ => ?_
      cases Spec.stored idx i <;> simp
    · intro i j a b _ _ ha hb hab
      obtain ⟨y, hy, rfl⟩ := Option.map_eq_some_iff.mp ha
      obtain ⟨z, hz, rfl⟩ := Option.map_eq_some_iff.mp hb
      rw [neg_neg, neg_neg]
      exact hg y z (by linarith)

/-! ## The indexes follow the factors -/

/-- The indexes of an Annoy or NMSLib model were built from the present item factors. -/
structure AnnSynced (kind : AnnKind) (E : AnnEnv f) (s : AnnState f (f + 1)) : Prop where
  similar : E.approximateSimilar = true → s.similarIndex = some (similarEntries kind E s.inner.item)
  recommend : E.approximateRecommend = true → ∃ mx ext, augment (E.norm f) s.inner.item = .ok (mx, ext) ∧
    s.maxNorm = some mx ∧ s.recommendIndex = some (numbered ext)

theorem annFit_synced {kind : AnnKind} {E : AnnEnv f} {fit : InnerFit f} {st : AnnState f (f + 1)}
    (h : (annFit kind E fit st).1 = .ok ()) : AnnSynced kind E (annFit kind E fit st).2 := by
  unfold annFit at h ⊢
  rcases hr : fit st.inner with ⟨r, m⟩
  rw [hr] at h
  cases r with
  | error e => simp at h
  | ok _ =>
    simp only at h ⊢
    unfold buildAugmented at h ⊢
    cases hs : E.approximateSimilar <;> cases ha : E.approximateRecommend <;>
      simp only [hs, ha, if_true, if_false, Bool.false_eq_true] at h ⊢
    · exact ⟨by simp [hs], by simp [ha]⟩
    · cases hx : augment (E.norm f) m.item with
      | error e => rw [hx] at h; simp at h
      | ok p =>
        obtain ⟨mx, ext⟩ := p
        exact ⟨by simp [hs], fun _ => ⟨mx, ext, hx, rfl, rfl⟩⟩
    · exact ⟨fun _ => rfl, by simp [ha]⟩
    · cases hx : augment (E.norm f) m.item with
      | error e => rw [hx] at h; simp at h
      | ok p =>
        obtain ⟨mx, ext⟩ := p
        exact ⟨fun _ => rfl, fun _ => ⟨mx, ext, hx, rfl, rfl⟩⟩

theorem AnnSynced.sameItems {kind : AnnKind} {E : AnnEnv f} {s s' : AnnState f (f + 1)} (h : AnnSynced kind E s)
    (hi : s'.inner.item = s.inner.item) (h1 : s'.similarIndex = s.similarIndex)
    (h2 : s'.recommendIndex = s.recommendIndex) (h3 : s'.maxNorm = s.maxNorm) : AnnSynced kind E s' := by
  obtain ⟨a, b⟩ := h
  constructor
  · rw [h1, hi]; exact a
  · rw [h2, h3, hi]; exact b

theorem withIndex_same {α : Type} {n : Nat} (E : AnnEnv f) (index : Option (AnnIndex n)) (approximate : Bool)
    (st : MFState f ℝ) (query : (Vec n ℝ → Nat → List (Int × ℝ)) → Except Err α × MFState f ℝ)
    (h : ∀ search, SameFactors st (query search).2) : SameFactors st (withIndex E index approximate query).2 := by
  unfold withIndex
  cases index with
  | some idx => exact h _
  | none =>
    have := h fun _ _ => []
    rcases hr : query fun _ _ => [] with ⟨r, st'⟩
    rw [hr] at this
    cases r <;> exact this

theorem annRecommendOn_same (kind : AnnKind) (E : AnnEnv f) (st : AnnState f (f + 1)) (a : AnnRecommendArgs) :
    SameFactors st.inner (annRecommendOn kind E st a).2 :=
  withIndex_same _ _ _ _ _ fun _ => C09_ann_recommend _ _ _ _ _ _ _ _ _ _ _ _ _ _

theorem annSimilarOn_same (kind : AnnKind) (E : AnnEnv f) (st : AnnState f (f + 1)) (a : AnnSimilarArgs) :
    SameFactors st.inner (annSimilarOn kind E st a).2 := by
  refine withIndex_same _ _ _ _ _ fun _ => ?_
  cases kind
  · exact C09_annoy_similar _ _ _ _ _ _ _ _ _ _
  · exact C09_nmslib_similar _ _ _ _ _ _ _ _ _ _

/-- The operations after which the indexes still fit: a `fit` must succeed, or have failed in the wrapped model without
changing the item factors; operations on the wrapped model must not change the item factors; queries are unrestricted. -/
def AnnKeeps (kind : AnnKind) (E : AnnEnv f) (s : AnnState f (f + 1)) : AnnOp f → Prop
  | .fit inner => (annFit kind E inner s).1 = .ok () ∨
      (∃ e, (inner s.inner).1 = .error e) ∧ (inner s.inner).2.item = s.inner.item
  | .recommend _ => True
  | .similarItems _ => True
  | .onModel op => (runOp E.env s.inner op).item = s.inner.item

/-- All operations of a history. -/
def AnnKeepsAll (kind : AnnKind) (E : AnnEnv f) : AnnState f (f + 1) → List (AnnOp f) → Prop
  | _, [] => True
  | s, op :: ops => AnnKeeps kind E s op ∧ AnnKeepsAll kind E (annStep kind E s op) ops

theorem annStep_synced {kind : AnnKind} {E : AnnEnv f} {s : AnnState f (f + 1)} (h : AnnSynced kind E s) {op : AnnOp f}
    (hk : AnnKeeps kind E s op) : AnnSynced kind E (annStep kind E s op) := by
  cases op with
  | fit inner =>
    rcases hk with hk | ⟨⟨e, he⟩, hi⟩
    · exact annFit_synced hk
    · refine h.sameItems ?_ ?_ ?_ ?_ <;>
      · show _ = _
        simp only [annStep, annFit]
        rcases hr : inner s.inner with ⟨r, m⟩
        rw [hr] at he hi
        simp only at he hi
        subst he
        first | exact hi | rfl
  | recommend a => exact h.sameItems (annRecommendOn_same kind E s a).2 rfl rfl rfl
  | similarItems a => exact h.sameItems (annSimilarOn_same kind E s a).2 rfl rfl rfl
  | onModel op => exact h.sameItems hk rfl rfl rfl

theorem annSteps_synced {kind : AnnKind} {E : AnnEnv f} : ∀ (ops : List (AnnOp f)) {s : AnnState f (f + 1)},
    AnnSynced kind E s → AnnKeepsAll kind E s ops → AnnSynced kind E (ops.foldl (annStep kind E) s)
  | [], _, h, _ => h
  | _ :: ops, _, h, hk => annSteps_synced ops (annStep_synced h hk.1) hk.2

/-! ## Faiss -/

/-- The recommendation index of a Faiss model holds the present item factors. -/
def FaissRecommendSynced (E : AnnEnv f) (s : AnnState f f) : Prop :=
  E.approximateRecommend = true → s.recommendIndex = some (numbered s.inner.item)

/-- The index of similar items holds the present item factors, normalised. -/
def FaissSimilarSynced (E : AnnEnv f) (s : AnnState f f) : Prop :=
  E.approximateSimilar = true → s.similarIndex = some (numbered (faissNormalized E s.inner.item))

theorem faissTrain_ok {n nlist : Nat} {rows : List (Vec n ℝ)} {idx : AnnIndex n}
    (h : faissTrain nlist rows = .ok idx) : idx = numbered rows := by
  unfold faissTrain at h
  split_ifs at h
  exact (Except.ok.inj h).symm

theorem faissFit_synced {E : AnnEnv f} {nlist : Nat} {fit : InnerFit f} {st : AnnState f f}
    (h : (faissFit E nlist fit st).1 = .ok ()) :
    FaissRecommendSynced E (faissFit E nlist fit st).2 ∧ FaissSimilarSynced E (faissFit E nlist fit st).2 := by
  unfold faissFit at h ⊢
  rcases hr : fit st.inner with ⟨r, m⟩
  rw [hr] at h
  cases r with
  | error e => simp at h
  | ok _ =>
    simp only at h ⊢
    cases hs : E.approximateSimilar <;> cases ha : E.approximateRecommend <;>
      simp only [hs, ha, if_true, if_false, Bool.false_eq_true] at h ⊢
    · exact ⟨fun h => by simp [ha] at h, fun h => by simp [hs] at h⟩
    · cases h1 : faissTrain nlist m.item with
      | error e => rw [h1] at h; simp at h
      | ok i1 =>
        exact ⟨fun _ => by rw [faissTrain_ok h1], fun h => by simp [hs] at h⟩
    · cases h2 : faissTrain nlist (faissNormalized E m.item) with
      | error e => rw [h2] at h; simp at h
      | ok i2 =>
        exact ⟨fun h => by simp [ha] at h, fun _ => by rw [faissTrain_ok h2]⟩
    · cases h1 : faissTrain nlist m.item with
      | error e => rw [h1] at h; simp at h
      | ok i1 =>
        cases h2 : faissTrain nlist (faissNormalized E m.item) with
        | error e => rw [h1, h2] at h; simp at h
        | ok i2 =>
          exact ⟨fun _ => by rw [faissTrain_ok h1], fun _ => by rw [faissTrain_ok h2]⟩

theorem faissRecommendOn_same (E : AnnEnv f) (st : AnnState f f) (a : AnnRecommendArgs) :
    SameFactors st.inner (faissRecommendOn E st a).2 :=
  withIndex_same _ _ _ _ _ fun _ => C09_faiss_recommend _ _ _ _ _ _ _ _ _ _ _ _

theorem withIndex_holds {α : Type} {n : Nat} (E : AnnEnv f) (index : Option (AnnIndex n)) (approximate : Bool)
    (query : (Vec n ℝ → Nat → List (Int × ℝ)) → Except Err α × MFState f ℝ) (P : MFState f ℝ → Prop)
    (h : ∀ search, P (query search).2) : P (withIndex E index approximate query).2 := by
  unfold withIndex
  cases index with
  | some idx => exact h _
  | none =>
    have := h fun _ _ => []
    rcases hr : query fun _ _ => [] with ⟨r, st'⟩
    rw [hr] at this
    cases r <;> exact this

/-- `similar_items` of the Faiss model leaves the item factors alone or normalises the one asked for. -/
theorem faissSimilar_item (env : Env f ℝ) (search : Vec f ℝ → Nat → List (Int × ℝ)) (approximate : Bool)
    (st : MFState f ℝ) (ids : Ids) (N : Nat) (rc : Bool) (rows : Option (SpRows ℝ)) (fi : Option PyFilter)
    (items : Option (List Int)) :
    (faissSimilar env search approximate false st ids N rc rows fi items).2.item = st.item ∨
      ∃ i v, ids = .one i ∧ st.item[i]? = some v ∧
        (faissSimilar env search approximate false st ids N rc rows fi items).2.item =
          st.item.set i (normalizeVec env.norm v) := by
  by_cases h : approximate = false ∨ rc = true ∨ ∃ is, ids = .many is
  · exact Or.inl (C09_faiss_similar_partial env search approximate false st ids N rc rows fi items h).2
  · push Not at h
    obtain ⟨h1, h2, h3⟩ := h
    have h1 : approximate = true := by simpa using h1
    have h2 : rc = false := by simpa using h2
    subst h1 h2
    cases ids with
    | many is => exact absurd rfl (h3 is)
    | one i =>
      unfold faissSimilar
      by_cases hi : items.isSome = true
      · left; simp [hi]
      · simp only [hi, Bool.false_and, Bool.false_eq_true, if_false, Bool.not_true, Bool.or_false]
        unfold annItemFactors
        simp only [Bool.false_eq_true, if_false, show (Ids.one i).toList = [i] from rfl]
        cases hv : st.item[i]? with
        | none =>
          left
          have : gather st.item [i] = .error .indexError := by simp [gather, hv]
          simp [this]
        | some v =>
          right
          refine ⟨i, v, rfl, hv, ?_⟩
          simp [gather_one hv]

theorem faissSimilarOn_item (E : AnnEnv f) (st : AnnState f f) (a : AnnSimilarArgs) :
    (faissSimilarOn E st a).2.item = st.inner.item ∨
      ∃ i v, a.ids = .one i ∧ st.inner.item[i]? = some v ∧
        (faissSimilarOn E st a).2.item = st.inner.item.set i (normalizeVec E.env.norm v) :=
  withIndex_holds _ _ _ _ (fun s => s.item = st.inner.item ∨
      ∃ i v, a.ids = .one i ∧ st.inner.item[i]? = some v ∧
        s.item = st.inner.item.set i (normalizeVec E.env.norm v))
    fun _ => faissSimilar_item _ _ _ _ _ _ _ _ _ _

/-- As `AnnKeeps`, for Faiss; `ok` restricts `similar_items`. -/
def FaissKeeps (ok : AnnState f f → AnnSimilarArgs → Prop) (E : AnnEnv f) (nlist : Nat) (s : AnnState f f) :
    AnnOp f → Prop
  | .fit inner => (faissFit E nlist inner s).1 = .ok () ∨
      (∃ e, (inner s.inner).1 = .error e) ∧ (inner s.inner).2.item = s.inner.item
  | .recommend _ => True
  | .similarItems a => ok s a
  | .onModel op => (runOp E.env s.inner op).item = s.inner.item

/-- All operations of a history. -/
def FaissKeepsAll (ok : AnnState f f → AnnSimilarArgs → Prop) (E : AnnEnv f) (nlist : Nat) :
    AnnState f f → List (AnnOp f) → Prop
  | _, [] => True
  | s, op :: ops => FaissKeeps ok E nlist s op ∧ FaissKeepsAll ok E nlist (faissStep E nlist s op) ops

/-- Not `similar_items` for one item with its stored factor. -/
def NotScalar (E : AnnEnv f) (_ : AnnState f f) (a : AnnSimilarArgs) : Prop :=
  E.approximateSimilar = false ∨ a.recalculate = true ∨ ∃ is, a.ids = .many is

/-- Not `similar_items` for one item whose factor is zero. -/
def NotZeroItem (s : AnnState f f) (a : AnnSimilarArgs) : Prop :=
  ∀ i v, a.ids = .one i → s.inner.item[i]? = some v → v ≠ 0

theorem FaissRecommendSynced.step {E : AnnEnv f} {nlist : Nat} {s : AnnState f f} (h : FaissRecommendSynced E s)
    {op : AnnOp f} (hk : FaissKeeps (NotScalar E) E nlist s op) : FaissRecommendSynced E (faissStep E nlist s op) := by
  have same : ∀ m : MFState f ℝ, m.item = s.inner.item → FaissRecommendSynced E { s with inner := m } := by
    intro m hm ha
    show s.recommendIndex = some (numbered m.item)
    rw [hm]
    exact h ha
  cases op with
  | fit inner =>
    rcases hk with hk | ⟨⟨e, he⟩, hi⟩
    · exact (faissFit_synced hk).1
    · rcases hr : inner s.inner with ⟨r, m⟩
      rw [hr] at he hi
      simp only at he hi
      subst he
      have : faissStep E nlist s (.fit inner) = { s with inner := m } := by
        simp only [faissStep, faissFit, hr]
      rw [this]
      exact same m hi
  | recommend a => exact same _ (faissRecommendOn_same E s a).2
  | similarItems a =>
    exact same _ (withIndex_same _ _ _ _ _ fun _ => C09_faiss_similar_partial _ _ _ _ _ _ _ _ _ _ _ hk).2
  | onModel op => exact same _ hk

theorem FaissRecommendSynced.steps {E : AnnEnv f} {nlist : Nat} : ∀ (ops : List (AnnOp f)) {s : AnnState f f},
    FaissRecommendSynced E s → FaissKeepsAll (NotScalar E) E nlist s ops →
      FaissRecommendSynced E (ops.foldl (faissStep E nlist) s)
  | [], _, h, _ => h
  | _ :: ops, _, h, hk => FaissRecommendSynced.steps ops (h.step hk.1) hk.2

theorem l2norm_normalize {v : Vec f ℝ} (hv : v ≠ 0) : l2norm (normalizeVec l2norm v) = 1 := by
  have hp := l2norm_pos hv
  have hsq : dot (normalizeVec l2norm v) (normalizeVec l2norm v) = 1 := by
    have : dot (normalizeVec l2norm v) (normalizeVec l2norm v) = dot v v / (l2norm v) ^ 2 := by
      unfold dot normalizeVec
      rw [Finset.sum_div]
      exact Finset.sum_congr rfl fun j _ => by field_simp
    rw [this, ← l2norm_sq]
    field_simp
  unfold l2norm
  rw [show dot (normalizeVec (fun v => Real.sqrt (dot v v)) v) (normalizeVec (fun v => Real.sqrt (dot v v)) v) = 1
    from hsq]
  exact Real.sqrt_one

theorem FaissSimilarSynced.step {E : AnnEnv f} {nlist : Nat} (hn : E.norm f = l2norm) (hen : E.env.norm = l2norm)
    {s : AnnState f f} (h : FaissSimilarSynced E s) {op : AnnOp f} (hk : FaissKeeps NotZeroItem E nlist s op) :
    FaissSimilarSynced E (faissStep E nlist s op) := by
  have same : ∀ m : MFState f ℝ, m.item = s.inner.item → FaissSimilarSynced E { s with inner := m } := by
    intro m hm ha
    show s.similarIndex = some (numbered (faissNormalized E m.item))
    rw [hm]
    exact h ha
  cases op with
  | fit inner =>
    rcases hk with hk | ⟨⟨e, he⟩, hi⟩
    · exact (faissFit_synced hk).2
    · rcases hr : inner s.inner with ⟨r, m⟩
      rw [hr] at he hi
      simp only at he hi
      subst he
      have : faissStep E nlist s (.fit inner) = { s with inner := m } := by
        simp only [faissStep, faissFit, hr]
      rw [this]
      exact same m hi
  | recommend a => exact same _ (faissRecommendOn_same E s a).2
  | similarItems a =>
    rcases faissSimilarOn_item E s a with hs | ⟨i, v, hi, hv, hs⟩
    · exact same _ hs
    · have hv0 : v ≠ 0 := hk i v hi hv
      intro ha
      show s.similarIndex = some (numbered (faissNormalized E (faissSimilarOn E s a).2.item))
      rw [h ha, hs, hen]
      congr 2
      unfold faissNormalized
      rw [hn]
      apply List.ext_getElem?
      intro j
      rw [List.getElem?_map, List.getElem?_map, List.getElem?_set]
      by_cases hij : i = j
      · subst hij
        have hlt := (List.getElem?_eq_some_iff.mp hv).1
        rw [if_pos rfl, if_pos hlt, hv]
        simp only [Option.map_some, Option.some.injEq]
        funext k
        rw [l2norm_normalize hv0, if_neg (l2norm_pos hv0).ne', if_neg one_ne_zero]
        simp [normalizeVec]
      · rw [if_neg hij]
  | onModel op => exact same _ hk

theorem FaissSimilarSynced.steps {E : AnnEnv f} {nlist : Nat} (hn : E.norm f = l2norm) (hen : E.env.norm = l2norm) :
    ∀ (ops : List (AnnOp f)) {s : AnnState f f}, FaissSimilarSynced E s → FaissKeepsAll NotZeroItem E nlist s ops →
      FaissSimilarSynced E (ops.foldl (faissStep E nlist) s)
  | [], _, h, _ => h
  | _ :: ops, _, h, hk => FaissSimilarSynced.steps hn hen ops (h.step hn hen hk.1) hk.2

end Implicit

import Verif.Spec.ElementTypes
/-!
# C82: element types of matrices and factors
-/

namespace Implicit

open Spec (OfType TypedCall)

/-- One call on an ALS model. -/
def alsCallT (nep50 : Bool) (m : TModel) : TypedCall → Except Err (Option FType × TModel)
  | .fit o c => do return (none, ← alsFitT nep50 o m c)
  | .recommend o r c => do let (t, m) ← recommendT nep50 o m r c; return (some t, m)
  | .similarItems o r c => do let (t, m) ← similarItemsT nep50 o m r c; return (some t, m)
  | .similarUsers => do let (t, m) ← similarUsersT m; return (some t, m)
  | .explain => do let (t, m) ← explainT m; return (some t, m)
  | .recalculateUser o c => do let (t, m) ← recalcUserT nep50 o m c; return (some t, m)
  | .recalculateItem o c => do let (t, m) ← recalcItemT nep50 o m c; return (some t, m)
  | .partialFitUsers o g c => do return (none, ← partialUsersT nep50 o m g c)
  | .partialFitItems o g c => do return (none, ← partialItemsT nep50 o m g c)

/-- A sequence of calls: the types returned, and the model. -/
def alsRunT (nep50 : Bool) : TModel → List TypedCall → Except Err (List (Option FType) × TModel)
  | m, [] => .ok ([], m)
  | m, c :: cs => do
    let (t, m) ← alsCallT nep50 m c
    let (ts, m) ← alsRunT nep50 m cs
    return (t :: ts, m)

theorem fmax_self (t : FType) : t.max t = t := by cases t <;> rfl

theorem gramT_of {t : FType} {c f : Option FType} (hc : ∀ s, c = some s → s = t) (hf : f = some t) :
    gramT c f = .ok t := by
  subst hf
  cases c with
  | none => rfl
  | some s => exact congrArg Except.ok (hc s rfl)

theorem normsT_of {t : FType} {c f : Option FType} (hc : ∀ s, c = some s → s = t) (hf : f = some t) :
    normsT c f = .ok t := by
  subst hf
  cases c with
  | none => rfl
  | some s => exact congrArg Except.ok (hc s rfl)

theorem leastSquaresT_same {t : FType} (ht : t ≠ .f16) (c : MatT) : leastSquaresT t t t (toF32 c).data = .ok () := by
  cases t
  · exact absurd rfl ht
  · rfl
  · rfl

theorem solverT_same {t : FType} (ht : t ≠ .f16) (native : Bool) (c : MatT) : solverT native t t c = .ok () := by
  cases t
  · exact absurd rfl ht
  · cases native <;> rfl
  · cases native <;> rfl

theorem topkT_same {t : FType} (ht : t ≠ .f16) (norms : Option FType) (hn : ∀ s, norms = some s → s = t) :
    topkT t t norms = .ok t := by
  cases norms with
  | none => cases t <;> first | exact absurd rfl ht | rfl
  | some s =>
    have := hn s rfl
    subst this
    cases s <;> first | exact absurd rfl ht | rfl

theorem recalcUserT_of (nep50 : Bool) (o : AlsOptions) {t : FType} (ht : t ≠ .f16) {m : TModel} (hm : OfType t m) (c : MatT) :
    ∃ m', recalcUserT nep50 o m c = .ok (t, m') ∧ OfType t m' := by
  obtain ⟨h1, h2, h3, h4⟩ := hm
  refine ⟨{ m with yty := some t }, ?_, ⟨h1, h2, h3, ?_⟩⟩
  · unfold recalcUserT
    rw [gramT_of (h4 m.yty (by simp)) h3, h3, h1]
    simp only [bind, Except.bind, fitted]
    rw [leastSquaresT_same ht]
    rfl
  · intro c hc s hs
    simp only [List.mem_cons, List.not_mem_nil, or_false] at hc
    rcases hc with rfl | rfl | rfl | rfl
    · exact h4 _ (by simp) s hs
    · exact h4 _ (by simp) s hs
    · exact (Option.some.inj hs).symm
    · exact h4 _ (by simp) s hs

theorem recalcItemT_of (nep50 : Bool) (o : AlsOptions) {t : FType} (ht : t ≠ .f16) {m : TModel} (hm : OfType t m) (c : MatT) :
    ∃ m', recalcItemT nep50 o m c = .ok (t, m') ∧ OfType t m' := by
  obtain ⟨h1, h2, h3, h4⟩ := hm
  refine ⟨{ m with xtx := some t }, ?_, ⟨h1, h2, h3, ?_⟩⟩
  · unfold recalcItemT
    rw [gramT_of (h4 m.xtx (by simp)) h2, h2, h1]
    simp only [bind, Except.bind, fitted]
    rw [leastSquaresT_same ht]
    rfl
  · intro c hc s hs
    simp only [List.mem_cons, List.not_mem_nil, or_false] at hc
    rcases hc with rfl | rfl | rfl | rfl
    · exact h4 _ (by simp) s hs
    · exact h4 _ (by simp) s hs
    · exact h4 _ (by simp) s hs
    · exact (Option.some.inj hs).symm

theorem ofType_norms {t : FType} {m : TModel} (hm : OfType t m) (a b y x : Option FType)
    (ha : ∀ s, a = some s → s = t) (hb : ∀ s, b = some s → s = t) (hy : ∀ s, y = some s → s = t)
    (hx : ∀ s, x = some s → s = t) : OfType t { m with userNorms := a, itemNorms := b, yty := y, xtx := x } := by
  refine ⟨hm.dtype, hm.user, hm.item, ?_⟩
  intro c hc
  simp only [List.mem_cons, List.not_mem_nil, or_false] at hc
  rcases hc with rfl | rfl | rfl | rfl <;> assumption

/-- A fit, of a new model or again. -/
theorem alsFitT_of (nep50 : Bool) (o : AlsOptions) {t : FType} (ht : t ≠ .f16) {m : TModel} (hd : m.dtype = t)
    (hu : m.user = none ∨ m.user = some t) (hi : m.item = none ∨ m.item = some t) (c : MatT) :
    ∃ m', alsFitT nep50 o m c = .ok m' ∧ OfType t m' := by
  have hg : generatorRandom t = .ok t := by cases t <;> first | exact absurd rfl ht | rfl
  have h1 : initT (generatorRandom m.dtype) m.user = .ok t := by
    rcases hu with h | h <;> rw [h]
    · rw [hd]; exact hg
    · rfl
  have h2 : initT (generatorRandom m.dtype) m.item = .ok t := by
    rcases hi with h | h <;> rw [h]
    · rw [hd]; exact hg
    · rfl
  have hf : fusedFloating t = .ok () := by cases t <;> first | exact absurd rfl ht | rfl
  have hb : bufferT t t = .ok () := by simp [bufferT]
  have hdt : ∀ c : MatT, dataT .f32 (toF32 c).data = .ok () := fun c => rfl
  refine ⟨{ m with user := some t, item := some t, userNorms := none, itemNorms := none, yty := none, xtx := none }, ?_,
    ⟨hd, rfl, rfl, ?_⟩⟩
  · unfold alsFitT
    rw [h1, h2]
    simp only [bind, Except.bind, pure, Except.pure, solverT_same ht, hf, hb, hdt]
    by_cases h : o.iterations = 0
    · simp [h]
    · by_cases h' : o.loss <;> simp [h, h']
  · intro c hc s hs
    simp only [List.mem_cons, List.not_mem_nil, or_false, or_self] at hc
    subst hc
    simp at hs

theorem alsCallT_of (nep50 : Bool) {t : FType} (ht : t ≠ .f16) {m : TModel} (hm : OfType t m) (call : TypedCall) :
    ∃ m', alsCallT nep50 m call = .ok (call.expected t, m') ∧ OfType t m' := by
  have hc := hm.caches
  cases call with
  | fit o c =>
    obtain ⟨m', h, h'⟩ := alsFitT_of nep50 o ht hm.dtype (.inr hm.user) (.inr hm.item) c
    refine ⟨m', ?_, h'⟩
    simp [alsCallT, h, bind, Except.bind, pure, Except.pure, TypedCall.expected]
  | recommend o r c =>
    cases r with
    | true =>
      obtain ⟨m', h, h'⟩ := recalcUserT_of nep50 o ht hm c
      refine ⟨m', ?_, h'⟩
      simp [alsCallT, recommendT, h, h'.item, fitted, topkT_same ht none, bind, Except.bind, pure, Except.pure,
        TypedCall.expected]
    | false =>
      refine ⟨m, ?_, hm⟩
      simp [alsCallT, recommendT, hm.user, hm.item, fitted, topkT_same ht none, bind, Except.bind, pure, Except.pure,
        TypedCall.expected]
  | similarItems o r c =>
    cases r with
    | true =>
      obtain ⟨m', h, h'⟩ := recalcItemT_of nep50 o ht hm c
      refine ⟨{ m' with itemNorms := some t }, ?_, ?_⟩
      · have := normsT_of (h'.caches m'.itemNorms (by simp)) h'.item
        rw [h'.item] at this
        simp [alsCallT, similarItemsT, h, h'.item, fitted, this, topkT_same ht (some t), bind, Except.bind, pure,
          Except.pure, TypedCall.expected]
      · exact ofType_norms h' m'.userNorms (some t) m'.yty m'.xtx (h'.caches _ (by simp)) (fun s hs => (Option.some.inj hs).symm)
          (h'.caches _ (by simp)) (h'.caches _ (by simp))
    | false =>
      refine ⟨{ m with itemNorms := some t }, ?_, ?_⟩
      · have := normsT_of (hc m.itemNorms (by simp)) hm.item
        rw [hm.item] at this
        simp [alsCallT, similarItemsT, hm.item, fitted, this, topkT_same ht (some t), bind, Except.bind, pure,
          Except.pure, TypedCall.expected]
      · exact ofType_norms hm m.userNorms (some t) m.yty m.xtx (hc _ (by simp)) (fun s hs => (Option.some.inj hs).symm)
          (hc _ (by simp)) (hc _ (by simp))
  | similarUsers =>
    refine ⟨{ m with userNorms := some t }, ?_, ?_⟩
    · have := normsT_of (hc m.userNorms (by simp)) hm.user
      rw [hm.user] at this
      simp [alsCallT, similarUsersT, hm.user, fitted, this, topkT_same ht (some t), bind, Except.bind, pure, Except.pure,
        TypedCall.expected]
    · exact ofType_norms hm (some t) m.itemNorms m.yty m.xtx (fun s hs => (Option.some.inj hs).symm) (hc _ (by simp))
        (hc _ (by simp)) (hc _ (by simp))
  | explain =>
    refine ⟨{ m with yty := some t }, ?_, ?_⟩
    · have := gramT_of (hc m.yty (by simp)) hm.item
      rw [hm.item] at this
      have h64 : (t.max t).max .f64 = .f64 := by cases t <;> rfl
      simp [alsCallT, explainT, hm.item, fitted, this, h64, bind, Except.bind, pure, Except.pure, TypedCall.expected]
    · exact ofType_norms hm m.userNorms m.itemNorms (some t) m.xtx (hc _ (by simp)) (hc _ (by simp))
        (fun s hs => (Option.some.inj hs).symm) (hc _ (by simp))
  | recalculateUser o c =>
    obtain ⟨m', h, h'⟩ := recalcUserT_of nep50 o ht hm c
    exact ⟨m', by simp [alsCallT, h, bind, Except.bind, pure, Except.pure, TypedCall.expected], h'⟩
  | recalculateItem o c =>
    obtain ⟨m', h, h'⟩ := recalcItemT_of nep50 o ht hm c
    exact ⟨m', by simp [alsCallT, h, bind, Except.bind, pure, Except.pure, TypedCall.expected], h'⟩
  | partialFitUsers o g c =>
    obtain ⟨m', h, h'⟩ := recalcUserT_of nep50 o ht hm c
    refine ⟨{ m' with user := some t, userNorms := none, xtx := none }, ?_, ⟨h'.dtype, rfl, h'.item, ?_⟩⟩
    · simp [alsCallT, partialUsersT, h, h'.user, h'.dtype, fmax_self, fitted, bind, Except.bind, pure, Except.pure,
        TypedCall.expected]
    · intro c hc s hs
      simp only [List.mem_cons, List.not_mem_nil, or_false] at hc
      rcases hc with rfl | rfl | rfl | rfl
      · simp at hs
      · exact h'.caches _ (by simp) s hs
      · exact h'.caches _ (by simp) s hs
      · simp at hs
  | partialFitItems o g c =>
    obtain ⟨m', h, h'⟩ := recalcItemT_of nep50 o ht hm c
    refine ⟨{ m' with item := some t, itemNorms := none, yty := none }, ?_, ⟨h'.dtype, h'.user, rfl, ?_⟩⟩
    · simp [alsCallT, partialItemsT, h, h'.item, h'.dtype, fmax_self, fitted, bind, Except.bind, pure, Except.pure,
        TypedCall.expected]
    · intro c hc s hs
      simp only [List.mem_cons, List.not_mem_nil, or_false] at hc
      rcases hc with rfl | rfl | rfl | rfl
      · exact h'.caches _ (by simp) s hs
      · simp at hs
      · simp at hs
      · exact h'.caches _ (by simp) s hs

theorem alsRunT_of (nep50 : Bool) {t : FType} (ht : t ≠ .f16) (calls : List TypedCall) {m : TModel} (hm : OfType t m) :
    ∃ m', alsRunT nep50 m calls = .ok (calls.map fun c => c.expected t, m') ∧ OfType t m' := by
  induction calls generalizing m with
  | nil => exact ⟨m, rfl, hm⟩
  | cons c cs ih =>
    obtain ⟨m1, h1, g1⟩ := alsCallT_of nep50 ht hm c
    obtain ⟨m2, h2, g2⟩ := ih g1
    refine ⟨m2, ?_, g2⟩
    simp [alsRunT, h1, h2, bind, Except.bind, pure, Except.pure]

/-- **ALS on the CPU**: created with float32 or float64 and fitted, no call ever fails because of element types, everything
is of the type asked for, whatever the types of the values and indices of the matrices, the kind of number used for
`alpha`, the solver and the version of numpy. -/
theorem C82_als (nep50 : Bool) {t : FType} (ht : t ≠ .f16) (o : AlsOptions) (c : MatT) (calls : List TypedCall) :
    ∃ m, alsRunT nep50 (.new t) (.fit o c :: calls) = .ok (none :: calls.map fun c => c.expected t, m) ∧ OfType t m := by
  obtain ⟨m1, h1, g1⟩ := alsFitT_of nep50 o ht (m := .new t) rfl (.inl rfl) (.inl rfl) c
  obtain ⟨m2, h2, g2⟩ := alsRunT_of nep50 ht calls g1
  exact ⟨m2, by simp [alsRunT, alsCallT, h1, h2, bind, Except.bind, pure, Except.pure], g2⟩

example : (alsRunT true (.new .f64) [.fit ⟨true, some (.numpy .f64), true, 15⟩ ⟨.int true 8, .i64⟩,
    .recommend ⟨true, none, false, 15⟩ true ⟨.bool, .i32⟩, .partialFitItems ⟨true, none, false, 15⟩ true ⟨.float .f32, .i32⟩,
    .similarItems ⟨true, none, false, 15⟩ false ⟨.bool, .i32⟩, .explain]).toOption =
    some ([none, some .f64, none, some .f64, some .f64],
      ⟨.f64, some .f64, some .f64, none, some .f64, some .f64, some .f64⟩) := by decide

/-- **Any factors** (assigned, loaded or converted): `recommend` answers exactly if the user factors are float32 or float64
and the item factors are not wider; the scores have the type of the user factors. -/
theorem C82_recommend_exact (nep50 : Bool) (o : AlsOptions) (m : TModel) (c : MatT) (u i : FType) (hu : m.user = some u)
    (hi : m.item = some i) :
    (∃ r, recommendT nep50 o m false c = .ok r) ↔ u = .f64 ∨ u = .f32 ∧ i ≠ .f64 := by
  obtain ⟨d, mu, mi, n1, n2, g1, g2⟩ := m
  subst hu hi
  cases u <;> cases i <;> simp [recommendT, fitted, bind, Except.bind, pure, Except.pure, topkT, fusedFloating, bufferT, FType.max, FType.bits]

/-- The scores have the type of the factors of the user. -/
theorem C82_recommend_scores (nep50 : Bool) (o : AlsOptions) (m m' : TModel) (c : MatT) (u t : FType)
    (hu : m.user = some u) (h : recommendT nep50 o m false c = .ok (t, m')) : t = u := by
  obtain ⟨d, mu, mi, n1, n2, g1, g2⟩ := m
  subst hu
  cases mi with
  | none => simp [recommendT, fitted, bind, Except.bind, pure, Except.pure] at h
  | some i =>
    cases u <;> cases i <;>
      simp [recommendT, fitted, bind, Except.bind, pure, Except.pure, topkT, fusedFloating, bufferT, FType.max, FType.bits] at h <;>
      exact h.1.symm

/-- Native training exactly if both factors have one of the two types. -/
theorem C82_fit_exact (nep50 : Bool) (o : AlsOptions) (hn : o.native = true) (hi : o.iterations ≠ 0) (m : TModel)
    (c : MatT) (u i : FType) (hu : m.user = some u) (hit : m.item = some i) :
    (∃ r, alsFitT nep50 o m c = .ok r) ↔ u ≠ .f16 ∧ u = i := by
  unfold alsFitT
  simp only [hu, hit, initT, hn]
  cases u <;> cases i <;> cases o.loss <;> simp [bind, Except.bind, pure, Except.pure, hi, solverT, checkAlsDtype,
    leastSquaresT, fusedFloating, bufferT, dataT, toF32, FType.max, FType.bits]

/-- **BPR**: as ALS. -/
theorem C82_bpr (iterations again : Nat) {t : FType} (ht : t ≠ .f16) (c c' : MatT) :
    ∃ m m', bprFitT iterations (.new t) c = .ok m ∧ OfType t m ∧ bprFitT again m c' = .ok m' ∧ OfType t m' ∧
      similarUsersT m' = .ok (t, { m' with userNorms := some t }) := by
  refine ⟨⟨t, some t, some t, none, none, none, none⟩, ⟨t, some t, some t, none, none, none, none⟩, ?_, ?_, ?_, ?_, ?_⟩
  · cases t <;> first | exact absurd rfl ht | (by_cases h : iterations = 0 <;> simp [bprFitT, h, TModel.new, initT,
      generatorRandom, fusedFloating, bufferT, bind, Except.bind, pure, Except.pure])
  · exact ⟨rfl, rfl, rfl, by simp⟩
  · cases t <;> first | exact absurd rfl ht | (by_cases h : again = 0 <;> simp [bprFitT, h, initT,
      fusedFloating, bufferT, bind, Except.bind, pure, Except.pure])
  · exact ⟨rfl, rfl, rfl, by simp⟩
  · cases t <;> first | exact absurd rfl ht | rfl

/-- **LMF**: the factors are float32. -/
theorem C82_lmf_partial (iterations : Nat) (t : FType) (c : MatT) :
    ∃ m, lmfFitT iterations (.new t) c = .ok m ∧ m.user = some .f32 ∧ m.item = some .f32 := by
  refine ⟨⟨t, some .f32, some .f32, none, none, none, none⟩, ?_, rfl, rfl⟩
  by_cases h : iterations = 0 <;>
    simp [lmfFitT, h, TModel.new, initT, bufferT, bind, Except.bind, pure, Except.pure]

/-- `LogisticMatrixFactorization(dtype=np.float64)` has float32 factors, and cannot go on from float64 factors. -/
theorem C82_lmf_violated :
    (lmfFitT 30 (.new .f64) ⟨.float .f64, .i32⟩).toOption = some ⟨.f64, some .f32, some .f32, none, none, none, none⟩ ∧
    lmfFitT 30 { TModel.new .f64 with user := some .f64, item := some .f64 } ⟨.float .f64, .i32⟩ = .error .valueError :=
  ⟨rfl, rfl⟩

/-- **Item-item models**: the weighted ones take values of any type. -/
theorem C82_knn_fit (k : KnnKind) (m : MatT) :
    (∃ r, knnFitT k m = .ok r) ↔ m.index = .i32 ∧ (k = .plain → m.data = .float .f64) := by
  obtain ⟨d, i⟩ := m
  have hmax : ∀ t : FType, t.max .f64 = .f64 := by intro t; cases t <;> rfl
  cases k <;> cases i <;>
    simp [knnFitT, allPairsT, normalizeT, tfidfT, bm25T, int32T, dataT, hmax, bind, Except.bind, pure, Except.pure]
  by_cases h : d = .float .f64 <;> simp [h]

/-- **`tfidf_weight`, `normalize`, `bm25_weight`** return float64 whatever they get, with the indices as they were. -/
theorem C82_weights (m : MatT) :
    tfidfT m = ⟨.float .f64, m.index⟩ ∧ normalizeT m = ⟨.float .f64, m.index⟩ ∧ bm25T m = ⟨.float .f64, m.index⟩ := by
  have hmax : ∀ t : FType, t.max .f64 = .f64 := by intro t; cases t <;> rfl
  simp [tfidfT, normalizeT, bm25T, hmax]

/-- Recommendations need float32 or float64 and 32 bit indices. -/
theorem C82_knn_recommend (k : KnnT) (m : MatT) :
    (∃ t, knnRecommendT k m = .ok t) ↔ m.index = .i32 ∧ (m.data = .float .f32 ∨ m.data = .float .f64) := by
  obtain ⟨d, i⟩ := m
  cases d with
  | bool => simp [knnRecommendT, throw, throwThe, MonadExceptOf.throw, bind, Except.bind]
  | int s b => simp [knnRecommendT, throw, throwThe, MonadExceptOf.throw, bind, Except.bind]
  | float t =>
    cases t <;> cases i <;> simp [knnRecommendT, fusedFloating, int32T, bind, Except.bind, pure, Except.pure]

/-- A matrix of counts (integers) trains a cosine model but cannot be used to ask it; the plain model does not even take
float32; 64 bit indices are refused; one user gets float64 scores, several get float32. -/
theorem C82_knn_violated :
    (∃ r, knnFitT .cosine ⟨.int true 8, .i32⟩ = .ok r ∧ knnRecommendT r ⟨.int true 8, .i32⟩ = .error .typeError) ∧
    knnFitT .plain ⟨.float .f32, .i32⟩ = .error .valueError ∧
    knnFitT .cosine ⟨.float .f64, .i64⟩ = .error .valueError ∧
    (∃ r, knnFitT .bm25 ⟨.float .f32, .i32⟩ = .ok r ∧ knnRecommendT r ⟨.float .f32, .i32⟩ = .ok .f64 ∧
      knnRecommendBatchT r ⟨.float .f32, .i32⟩ = .ok .f32) :=
  ⟨⟨_, rfl, rfl⟩, rfl, rfl, ⟨_, rfl, rfl, rfl⟩⟩

/-- **Evaluation** of a trained ALS model: any values, but the indices of the test matrix have 32 bits. -/
theorem C82_evaluate (nep50 : Bool) (o : AlsOptions) {t : FType} (ht : t ≠ .f16) {m : TModel} (hm : OfType t m)
    (train test : MatT) :
    (∃ r, evaluateT (fun c => (recommendT nep50 o m false c).map Prod.fst) train test = .ok r) ↔ test.index = .i32 := by
  obtain ⟨d, i⟩ := test
  have : recommendT nep50 o m false train = .ok (t, m) := by
    simp [recommendT, hm.user, hm.item, fitted, topkT_same ht none, bind, Except.bind, pure, Except.pure]
  cases i <;> simp [evaluateT, int32T, this, Except.map, bind, Except.bind, pure, Except.pure]

/-- Evaluation of an item-item model on integer counts fails. -/
theorem C82_evaluate_violated :
    evaluateT (knnRecommendT ⟨.f64⟩) ⟨.int true 8, .i32⟩ ⟨.int true 8, .i32⟩ = .error .typeError ∧
    (evaluateT (fun c => (recommendT true ⟨true, none, false, 1⟩ ⟨.f32, some .f32, some .f32, none, none, none, none⟩ false c).map
      Prod.fst) ⟨.int true 8, .i32⟩ ⟨.int true 8, .i32⟩).toOption = some () :=
  ⟨rfl, rfl⟩

/-- **GPU**: float16 and float32, 32 bit indices; what `fit` returns has the type asked for. -/
theorem C82_gpu_fit (iterations : Nat) (t : FType) (c : MatT) :
    (∀ m, gpuFitT iterations (.new t) c = .ok m → m.dtype = t ∧ m.user = some t ∧ m.item = some t) ∧
    ((∃ m, gpuFitT iterations (.new t) c = .ok m) ↔ t ≠ .f64 ∧ c.index = .i32) := by
  obtain ⟨d, i⟩ := c
  cases t <;> cases i <;> by_cases h : iterations = 0 <;>
    simp [gpuFitT, TModel.new, initT, gpuAstype, int32T, bufferT, h, bind, Except.bind, pure, Except.pure]

/-- A float32 model trained on the GPU and moved to the CPU answers every sequence of calls, and can go back after them. -/
theorem C82_gpu_move (nep50 : Bool) (iterations : Nat) (c : MatT) (hc : c.index = .i32) (calls : List TypedCall) :
    ∃ m m' g, gpuFitT iterations (.new .f32) c = .ok m ∧
      alsRunT nep50 (toCpuT m) calls = .ok (calls.map fun c => c.expected .f32, m') ∧ OfType .f32 m' ∧
      toGpuT m' = .ok g ∧ g.user = some .f32 ∧ g.item = some .f32 := by
  obtain ⟨m, h⟩ := (C82_gpu_fit iterations .f32 c).2.mpr ⟨by simp, hc⟩
  obtain ⟨h1, h2, h3⟩ := (C82_gpu_fit iterations .f32 c).1 m h
  have ho : OfType .f32 (toCpuT m) := ⟨h1, h2, h3, by simp [toCpuT, TModel.new]⟩
  obtain ⟨m', g1, g2⟩ := alsRunT_of nep50 (by simp) calls ho
  refine ⟨m, m', { TModel.new m'.dtype with user := some .f32, item := some .f32 }, h, g1, g2, ?_, rfl, rfl⟩
  simp [toGpuT, g2.user, g2.item, gpuMatrixOptT, gpuMatrixT, bind, Except.bind, pure, Except.pure]

/-- A float16 model, trained on the GPU and moved to the CPU: `to_cpu` returns a model on which `recommend`,
`similar_items`, `similar_users`, `recalculate_user`, `partial_fit_users` and `fit` all fail; a float64 model cannot be moved
to the GPU. -/
theorem C82_half_violated :
    ∃ m, gpuFitT 15 (.new .f16) ⟨.float .f32, .i32⟩ = .ok m ∧
      let o : AlsOptions := ⟨true, none, false, 15⟩
      let c : MatT := ⟨.float .f32, .i32⟩
      alsCallT true (toCpuT m) (.recommend o false c) = .error .typeError ∧
      alsCallT true (toCpuT m) (.recommend o true c) = .error .typeError ∧
      alsCallT true (toCpuT m) (.similarItems o false c) = .error .typeError ∧
      alsCallT true (toCpuT m) .similarUsers = .error .typeError ∧
      alsCallT true (toCpuT m) (.partialFitUsers o true c) = .error .typeError ∧
      alsCallT true (toCpuT m) (.fit o c) = .error .valueError ∧
      toGpuT ⟨.f64, some .f64, some .f64, none, none, none, none⟩ = .error .valueError :=
  ⟨_, rfl, rfl, rfl, rfl, rfl, rfl, rfl, rfl⟩

/-- Factors of two types (from two files, or assigned): float64 items with float32 users cannot be recommended, float32
items with float64 users can, but not recalculated. -/
theorem C82_mixed_violated :
    let o : AlsOptions := ⟨true, none, false, 15⟩
    let c : MatT := ⟨.float .f32, .i32⟩
    let wide : TModel := ⟨.f32, some .f32, some .f64, none, none, none, none⟩
    let narrow : TModel := ⟨.f64, some .f64, some .f32, none, none, none, none⟩
    recommendT true o wide false c = .error .valueError ∧
    (recommendT true o narrow false c).toOption = some (.f64, narrow) ∧
    recommendT true o narrow true c = .error .valueError :=
  ⟨rfl, rfl, rfl⟩

end Implicit

import Verif.Model.Examples
import Verif.Spec.Listing
import Verif.Props.C03
import Verif.Props.C04
import Verif.Props.C07
import Verif.Props.C51
/-!
# C95: the example programs list every entity with its answer
-/

namespace Implicit

section
variable {R α : Type}

theorem slices_take {β : Type} (s : Nat) (l : List β) :
    ∀ m, ((List.range m).map fun k => (l.drop (k * s)).take s).flatten = l.take (m * s)
  | 0 => by simp
  | m + 1 => by
    rw [List.range_succ, List.map_append, List.flatten_append, slices_take s l m]
    simp only [List.map_cons, List.map_nil, List.flatten_cons, List.flatten_nil, List.append_nil]
    rw [Nat.succ_mul, List.take_add]

theorem slices_flatten {β : Type} {s : Nat} (hs : 0 < s) (l : List β) : (slices s l).flatten = l := by
  unfold slices
  rw [slices_take, List.take_of_length_le]
  have := Nat.lt_div_mul_add (a := l.length + s - 1) hs
  omega

theorem slices_ne {β : Type} {s : Nat} (hs : 0 < s) (l : List β) : ∀ b ∈ slices s l, b ≠ [] := by
  intro b hb h
  obtain ⟨k, hk, rfl⟩ := List.mem_map.mp hb
  have hk := List.mem_range.mp hk
  have h1 : k * s < l.length := by
    have := (Nat.lt_div_iff_mul_lt hs).mp hk
    have e : s * k = k * s := Nat.mul_comm _ _
    omega
  have h2 := congrArg List.length h
  simp at h2
  omega

theorem slices_sub {β : Type} {s : Nat} (hs : 0 < s) (l : List β) : ∀ b ∈ slices s l, ∀ x ∈ b, x ∈ l := by
  intro b hb x hx
  rw [← slices_flatten hs l]
  exact List.mem_flatten.mpr ⟨b, hb, hx⟩

theorem pyIndex_nat {β : Type} {l : List β} {i : Nat} {x : β} (h : l[i]? = some x) : pyIndex l (i : Int) = .ok x := by
  unfold pyIndex
  have h0 : ¬ (i : Int) < 0 := by omega
  simp only [if_neg h0, Int.toNat_natCast, h]

/-- `-1` is the last position. -/
theorem pyIndex_last {β : Type} (l : List β) : pyIndex l (-1) = pyIndex l ((l.length - 1 : Nat) : Int) := by
  unfold pyIndex
  have h0 : ¬ ((l.length - 1 : Nat) : Int) < 0 := by omega
  simp only [if_neg h0, if_pos (show (-1 : Int) < 0 by omega), Int.toNat_natCast]
  by_cases h : l.length = 0
  · have : l = [] := List.length_eq_zero_iff.mp h
    subst this
    rfl
  · have h1 : ¬ (-1 + (l.length : Int)) < 0 := by omega
    rw [if_neg h1]
    have : (-1 + (l.length : Int)).toNat = l.length - 1 := by omega
    rw [this]

/-- The file is the concatenation of the sections, however the ids are cut into batches. -/
theorem writeFile_eq {labels titles : List α} {skip : Nat → Bool} {ask : List Nat → Except Err (List (List (Int × R)))}
    {order : List Nat} {ans : Nat → List (Int × R)} {part : Nat → List (α × α × R)}
    (hask : ∀ batch, batch ≠ [] → (∀ i ∈ batch, i ∈ order) → ask batch = .ok (batch.map ans))
    (hskip : ∀ i ∈ order, skip i = true → part i = [])
    (hpart : ∀ i ∈ order, skip i = false → ∃ name, labels[i]? = some name ∧ writeAnswer titles name (ans i) = .ok (part i)) :
    writeFile labels titles skip ask order = .ok (order.flatMap part) := by
  have hb : ∀ batch ∈ slices 1000 order, writeBatch labels titles skip ask batch = .ok (batch.flatMap part) := by
    intro batch hbm
    have hsub := slices_sub (by omega) order batch hbm
    unfold writeBatch
    rw [hask batch (slices_ne (by omega) order batch hbm) hsub]
    have : batch.zipIdx.mapM (writeOne labels titles skip (batch.map ans)) =
        .ok (batch.zipIdx.map fun p => part p.1) := by
      apply mapM_ok_of
      rintro ⟨i, j⟩ hp
      have hj : batch[j]? = some i := List.mk_mem_zipIdx_iff_getElem?.mp hp
      have hi := hsub i (List.mem_of_getElem? hj)
      unfold writeOne
      cases hs : skip i with
      | true => simp [hskip i hi hs]
      | false =>
        obtain ⟨name, hn, hw⟩ := hpart i hi hs
        simp only [pyIndex_nat hn, List.getElem?_map, hj, Option.map_some]
        exact hw
    simp only [bind, Except.bind, this, pure, Except.pure]
    congr 1
    have e : (batch.zipIdx.map fun p => part p.1) = batch.map part := by
      have := congrArg (List.map part) (List.zipIdx_map_fst 0 batch)
      rw [List.map_map] at this
      exact this
    rw [e, List.flatMap_def]
  unfold writeFile
  rw [mapM_ok_of (h := fun b => b.flatMap part) hb]
  simp only [bind, Except.bind, pure, Except.pure]
  congr 1
  conv_rhs => rw [← slices_flatten (s := 1000) (by omega) order]
  simp only [List.flatMap_def, List.map_flatten, List.flatten_flatten, List.map_map]
  rfl

/-- A row with valid ids can be written, and gives its section. -/
theorem writeAnswer_intRow {labels titles : List α} {i : Nat} {name : α} (hn : labels[i]? = some name) :
    ∀ (a : List (Nat × R)), (∀ p ∈ a, p.1 < titles.length) →
      ∃ lines, writeAnswer titles name (intRow a) = .ok lines ∧ Spec.SectionOf labels titles i a lines
  | [], _ => ⟨[], rfl, .nil⟩
  | p :: a, h => by
    obtain ⟨lines, e, hs⟩ := writeAnswer_intRow (titles := titles) hn a fun q hq => h q (by simp [hq])
    have hp := h p (by simp)
    refine ⟨(name, titles[p.1], p.2) :: lines, ?_, .cons ⟨hn, by simp [hp], rfl⟩ hs⟩
    unfold writeAnswer intRow at e ⊢
    rw [List.map_cons, List.mapM_cons, pyIndex_nat (List.getElem?_eq_getElem hp)]
    simp only [bind, Except.bind, pure, Except.pure] at e ⊢
    rw [e]

/-- From single answers to the listing. -/
theorem writeFile_listing {labels titles : List α} {skip : Nat → Bool}
    {ask : List Nat → Except Err (List (List (Int × R)))} {order : List Nat} {P : Nat → List (Nat × R) → Prop}
    (hlab : ∀ i ∈ order, i < labels.length)
    (hask : ∃ (a : Nat → List (Nat × R)) (b : Nat → List (Int × R)),
      (∀ i ∈ order, P i (a i) ∧ ∀ p ∈ a i, p.1 < titles.length) ∧
      (∀ i ∈ order, ∀ name : α, writeAnswer titles name (b i) = writeAnswer titles name (intRow (a i))) ∧
      ∀ batch, batch ≠ [] → (∀ i ∈ batch, i ∈ order) → ask batch = .ok (batch.map b)) :
    ∃ file, writeFile labels titles skip ask order = .ok file ∧
      Spec.ListingOf labels titles (order.filter fun i => !skip i) P file := by
  obtain ⟨a, b, ha, hab, hb⟩ := hask
  have : ∀ i ∈ order, ∃ lines, ∃ name, labels[i]? = some name ∧ writeAnswer titles name (intRow (a i)) = .ok lines ∧
      Spec.SectionOf labels titles i (a i) lines := by
    intro i hi
    have hl := List.getElem?_eq_getElem (hlab i hi)
    obtain ⟨lines, e, hs⟩ := writeAnswer_intRow (titles := titles) hl (a i) (ha i hi).2
    exact ⟨lines, _, hl, e, hs⟩
  choose! L hL using this
  refine ⟨_, writeFile_eq (ans := b) (part := fun i => if skip i then [] else L i) hb ?_ ?_, ?_⟩
  · intro i hi hs
    simp [hs]
  · intro i hi hs
    obtain ⟨name, h1, h2, h3⟩ := hL i hi
    exact ⟨name, h1, by rw [hab i hi]; simpa [hs] using h2⟩
  · refine ⟨(order.filter fun i => !skip i).map L, ?_, ?_⟩
    · clear hL hb hab ha hlab
      induction order with
      | nil => rfl
      | cons i order ih =>
        cases hs : skip i <;> simp [hs, List.flatMap_cons, ih]
    · rw [List.forall₂_map_right_iff, List.forall₂_same]
      intro i hi
      have hi := (List.mem_filter.mp hi).1
      obtain ⟨name, h1, h2, h3⟩ := hL i hi
      exact ⟨a i, (ha i hi).1, h3⟩

/-- **C95** (order): the entities are taken by the number of stored entries of their rows, most first, equal ones by
id; a program with more names than rows ends with `IndexError` before anything is asked. -/
theorem C95_order (rows : SpRows R) (n : Nat) :
    (n ≤ rows.length → ∃ order, popularOrder rows n = .ok order ∧
      Spec.PopularFirst (fun i => (rows.getD i []).length) n order) ∧
    (rows.length < n → popularOrder rows n = .error .indexError) := by
  constructor
  · intro h
    refine ⟨_, if_neg (by omega), ?_⟩
    set r : Nat → Nat → Prop := fun a b => (rows.getD b []).length ≤ (rows.getD a []).length with hr
    have hp := List.perm_insertionSort r (List.range n)
    refine ⟨fun i => by rw [hp.mem_iff]; simp, hp.nodup_iff.mpr List.nodup_range, ?_⟩
    have : ∀ l : List Nat, l.Pairwise (· < ·) → (l.insertionSort r).Pairwise fun a b =>
        (rows.getD b []).length < (rows.getD a []).length ∨
          (rows.getD a []).length = (rows.getD b []).length ∧ a < b := by
      intro l
      induction l with
      | nil => intro _; exact .nil
      | cons a l ih =>
        intro hl
        obtain ⟨ha, hl⟩ := List.pairwise_cons.mp hl
        have key : ∀ m : List Nat, (∀ b ∈ m, a < b) → m.Pairwise (fun a b =>
            (rows.getD b []).length < (rows.getD a []).length ∨
              (rows.getD a []).length = (rows.getD b []).length ∧ a < b) →
            (m.orderedInsert r a).Pairwise fun a b => (rows.getD b []).length < (rows.getD a []).length ∨
              (rows.getD a []).length = (rows.getD b []).length ∧ a < b := by
          intro m
          induction m with
          | nil => intro _ _; simp
          | cons b m ihm =>
            intro hb hm
            obtain ⟨hm1, hm2⟩ := List.pairwise_cons.mp hm
            rw [List.orderedInsert_cons]
            split_ifs with hab
            · refine List.pairwise_cons.mpr ⟨?_, hm⟩
              intro c hc
              have hac := hb c hc
              have hab' : (rows.getD b []).length ≤ (rows.getD a []).length := hab
              rcases List.mem_cons.mp hc with rfl | hc
              · omega
              · have := hm1 c hc
                omega
            · refine List.pairwise_cons.mpr ⟨?_, ihm (fun c hc => hb c (by simp [hc])) hm2⟩
              intro c hc
              have hab' : ¬ (rows.getD b []).length ≤ (rows.getD a []).length := hab
              rcases (List.mem_orderedInsert r).mp hc with rfl | hc
              · omega
              · exact hm1 c hc
        exact key _ (fun b hb => ha b ((List.mem_insertionSort r).mp hb)) (ih hl)
    exact this _ List.pairwise_lt_range
  · intro h
    exact if_pos h

end

section
variable {R : Type} [LinearOrder R] [Field R] {f : Nat} {α : Type}

/-- A batch of `similar_items` succeeds when each of its queries does. -/
theorem similar_many_total (H : HeapImpl (R × Nat) pairLt) (neginf : R) (factors : List (Vec f R)) (norms : List R)
    (us : List Nat) (hus : us ≠ []) (N : Nat)
    (h : ∀ u ∈ us, ∃ row, similar H neginf factors norms (.one u) N none none = .ok (.one row)) :
    ∃ ans, similar H neginf factors norms (.many us) N none none = .ok ans := by
  have hone : ∀ u ∈ us, ∃ x n s, factors[u]? = some x ∧ norms[u]? = some n ∧ 1 ≤ N ∧ factors ≠ [] ∧
      ∀ idx, maskedRow neginf factors (some norms) none none idx x = .ok s := by
    intro u hu
    obtain ⟨row, e⟩ := h u hu
    unfold similar at e
    simp only [Ids.toList] at e
    cases h1 : gather factors [u] with
    | error e' => rw [h1] at e; cases e
    | ok q =>
      cases h2 : gather norms [u] with
      | error e' => rw [h1, h2] at e; cases e
      | ok qn =>
        obtain ⟨x, hx, rfl⟩ := gather_one_iff h1
        obtain ⟨n, hn, rfl⟩ := gather_one_iff h2
        rw [h1, h2] at e
        simp only [bind, Except.bind, similarWith, restrictSimilar, similarityScore, Option.map_none] at e
        cases h3 : topk H neginf factors [x] N (some norms) none none with
        | error e' => rw [h3] at e; cases e
        | ok rows =>
          obtain ⟨hk, hi, hm⟩ := topk_ok_inv h3 (by simp)
          obtain ⟨s, hs⟩ := hm 0 x (by simp)
          refine ⟨x, n, s, hx, hn, hk, hi, fun idx => ?_⟩
          rw [← hs]
          exact maskedRow_single neginf factors (some norms) none none none idx 0 x rfl
  choose! x n s hx hn hk hi hs using hone
  obtain ⟨u0, hu0⟩ := List.exists_mem_of_ne_nil us hus
  have g1 : gather factors us = .ok (us.map x) := (gather_ok _ _ _).mpr ⟨by simp, fun j i hj =>
    ⟨x i, hx i (List.mem_of_getElem? hj), by simp [hj]⟩⟩
  have g2 : gather norms us = .ok (us.map n) := (gather_ok _ _ _).mpr ⟨by simp, fun j i hj =>
    ⟨n i, hn i (List.mem_of_getElem? hj), by simp [hj]⟩⟩
  unfold similar
  simp only [Ids.toList]
  rw [g1, g2]
  simp only [bind, Except.bind, similarWith, restrictSimilar, similarityScore, Option.map_none]
  rw [topk_eq H neginf (hk u0 hu0) (hi u0 hu0) (S := fun idx => s (us.getD idx 0)) (by
    intro idx q hq
    rw [List.getElem?_map] at hq
    obtain ⟨u, hu, rfl⟩ := Option.map_eq_some_iff.mp hq
    rw [List.getD_eq_getElem?_getD, hu]
    exact hs u (List.mem_of_getElem? hu) idx)]
  simp only [pure, Except.pure]
  rw [mapM_ok_of (g := remapRow none) (h := fun r => r) (fun r _ => rfl)]
  exact ⟨_, rfl⟩

/-- Answers of the batches of a matrix factorization model. -/
theorem askSimilar_batches (H : HeapImpl (R × Nat) pairLt) (neginf : R) (factors : List (Vec f R)) (norms : List R)
    (a : Nat → List (Nat × R)) (batch : List Nat) (hb : batch ≠ [])
    (h : ∀ u ∈ batch, similar H neginf factors norms (.one u) 11 none none = .ok (.one (a u))) :
    askSimilar H neginf factors norms batch = .ok (batch.map fun i => intRow (a i)) := by
  obtain ⟨ans, e⟩ := similar_many_total H neginf factors norms batch hb 11 fun u hu => ⟨_, h u hu⟩
  obtain ⟨rows, rfl, hl, hr⟩ := C03_similar_batch H neginf factors norms batch 11 none none ans e
  unfold askSimilar
  rw [e]
  simp only [bind, Except.bind]
  congr 1
  apply List.ext_getElem?
  intro j
  rw [List.getElem?_map, List.getElem?_map]
  cases hj : batch[j]? with
  | none =>
    have : rows[j]? = none := by
      rw [List.getElem?_eq_none_iff] at hj ⊢
      omega
    rw [this]
    rfl
  | some u =>
    obtain ⟨row, e1, e2⟩ := hr j u hj
    rw [h u (List.mem_of_getElem? hj)] at e2
    cases e2
    rw [e1]
    rfl

end

section
variable {f : Nat} {α : Type}

/-- What `similar_items(i, 11)` has to answer for a matrix factorization model: the 11 items of greatest cosine. -/
def CosineNeighbours (factors : List (Vec f ℝ)) (i : Nat) (a : List (Nat × ℝ)) : Prop :=
  ∃ x, factors[i]? = some x ∧ a.length = 11 ∧
    Spec.IsRanking 11 (fun j => j < factors.length) (fun j => (factors[j]?).map (Spec.cosine x)) a

theorem cosine_batches (H : HeapImpl (ℝ × Nat) pairLt) (neginf eps : ℝ) (heps : 0 < eps) (factors : List (Vec f ℝ))
    (h11 : 11 ≤ factors.length) (order : List Nat) (titles : List α) (n : Nat) (hn : factors.length ≤ n)
    (ho : ∀ i ∈ order, i < factors.length) :
    ∃ (a : Nat → List (Nat × ℝ)) (b : Nat → List (Int × ℝ)),
      (∀ i ∈ order, CosineNeighbours factors i (a i) ∧ ∀ p ∈ a i, p.1 < n) ∧
      (∀ i ∈ order, ∀ name : α, writeAnswer titles name (b i) = writeAnswer titles name (intRow (a i))) ∧
      ∀ batch, batch ≠ [] → (∀ i ∈ batch, i ∈ order) →
        askSimilar H neginf factors (safeNorms l2norm eps factors) batch = .ok (batch.map b) := by
  have : ∀ i ∈ order, ∃ a, CosineNeighbours factors i a ∧
      similar H neginf factors (safeNorms l2norm eps factors) (.one i) 11 none none = .ok (.one a) := by
    intro i hi
    have hx := List.getElem?_eq_getElem (ho i hi)
    obtain ⟨out, e, hl, hr, _⟩ := C07_similar_cosine_partial H neginf eps heps factors i _ hx 11 (by omega) h11
    exact ⟨out, ⟨_, hx, hl, hr⟩, e⟩
  choose! a ha using this
  refine ⟨a, fun i => intRow (a i), fun i hi => ⟨(ha i hi).1, ?_⟩, fun _ _ _ => rfl, fun batch hb hsub => ?_⟩
  · intro p hp
    obtain ⟨x, _, _, hr⟩ := (ha i hi).1
    exact lt_of_lt_of_le (hr.mem p hp).1 hn
  · exact askSimilar_batches H neginf factors _ a batch hb fun u hu => (ha u (hsub u hu)).2

/-- **C95** (`lastfm.py`, similar artists, matrix factorization models with at least 11 artists): the program succeeds,
and its file has, for every artist, the most listened to first, one line for each of the 11 artists of greatest
cosine. -/
theorem C95_artists (H : HeapImpl (ℝ × Nat) pairLt) (neginf eps : ℝ) (heps : 0 < eps) (artists : List α) (plays : SpRows ℝ)
    (factors : List (Vec f ℝ)) (hplays : plays.length = artists.length) (hfac : factors.length = artists.length)
    (h11 : 11 ≤ artists.length) :
    ∃ file order, similarArtists artists plays (askSimilar H neginf factors (safeNorms l2norm eps factors)) = .ok file ∧
      Spec.PopularFirst (fun i => (plays.getD i []).length) artists.length order ∧
      Spec.ListingOf artists artists order (CosineNeighbours factors) file := by
  obtain ⟨order, eo, hord⟩ := (C95_order plays artists.length).1 (by omega)
  have hlt : ∀ i ∈ order, i < artists.length := fun i hi => (hord.1 i).mp hi
  obtain ⟨file, ef, hl⟩ := writeFile_listing (labels := artists) (titles := artists) (skip := fun _ => false)
    (order := order) hlt (cosine_batches H neginf eps heps factors (by omega) order artists artists.length (by omega)
      (fun i hi => by rw [hfac]; exact hlt i hi))
  refine ⟨file, order, ?_, hord, by simpa using hl⟩
  unfold similarArtists
  rw [eo]
  exact ef

/-- **C95** (`movielens.py`, matrix factorization models with at least 11 movies and a title for every movie): the
same, for the movies which have a rating left. -/
theorem C95_movies (H : HeapImpl (ℝ × Nat) pairLt) (neginf eps : ℝ) (heps : 0 < eps) (titles : List α) (ratings : SpRows ℝ)
    (factors : List (Vec f ℝ)) (hr : ratings.length = titles.length) (hfac : factors.length = ratings.length)
    (h11 : 11 ≤ ratings.length) :
    ∃ file order, similarMovies titles ratings (askSimilar H neginf factors (safeNorms l2norm eps factors)) = .ok file ∧
      Spec.PopularFirst (fun i => (ratings.getD i []).length) titles.length order ∧
      Spec.ListingOf titles titles (order.filter fun i => !(ratings.getD i []).isEmpty) (CosineNeighbours factors) file := by
  obtain ⟨order, eo, hord⟩ := (C95_order ratings titles.length).1 (by omega)
  have hlt : ∀ i ∈ order, i < titles.length := fun i hi => (hord.1 i).mp hi
  obtain ⟨file, ef, hl⟩ := writeFile_listing (labels := titles) (titles := titles)
    (skip := fun i => (ratings.getD i []).isEmpty)
    (order := order) hlt (cosine_batches H neginf eps heps factors (by omega) order titles titles.length (by omega)
      (fun i hi => by rw [hfac, hr]; exact hlt i hi))
  refine ⟨file, order, ?_, hord, hl⟩
  unfold similarMovies
  rw [eo]
  exact ef

end

end Implicit
